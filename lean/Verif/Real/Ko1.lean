import Verif.Real.Net

/-!
# The shipped sheet `/repo/data/KO_GLC/trains_schedules_KO_GLC.csv`

Generated; a row is the number of its block and the cells `speed`, `Arr`, `Dep`, `Approx_enter`,
`Label`, `Shunting`, `Turnaround_time_minutes`.
-/

namespace Verif.Real

/-- train 2 -/
def train_ko1_2 : CodedSection := ⟨"KS - Os", 2, "2", "S1", "from Katowice", [
  (14, ⟨"", some "R", none, some "14:00", none, some "Katowice", none, none⟩),
  (83, ⟨"", some "R", none, none, none, none, none, none⟩),
  (101, ⟨"", some "R", some "14:03", some "14:03", none, some "Katowice Załęże", none, none⟩),
  (84, ⟨"", some "R", none, none, none, none, none, none⟩),
  (121, ⟨"", some "R", none, none, none, none, none, none⟩),
  (1, ⟨"", some "R", some "14:06", some "14:06", none, some "Chorzów Batory", none, none⟩),
  (77, ⟨"", some "R", none, none, none, none, none, none⟩),
  (144, ⟨"", some "R", some "14:09", some "14:09", none, some "Świętochłowice", none, none⟩),
  (119, ⟨"", some "R", none, none, none, none, none, none⟩),
  (40, ⟨"", some "R", some "14:13", some "14:13", none, some "Ruda Chebzie", none, none⟩),
  (86, ⟨"", some "R", none, none, none, none, none, none⟩),
  (142, ⟨"", some "R", some "14:15", some "14:15", none, some "Ruda Śląska", none, none⟩),
  (87, ⟨"", some "R", none, none, none, none, none, none⟩),
  (126, ⟨"", some "R", none, none, none, none, none, none⟩),
  (30, ⟨"", some "R", some "14:20", some "14:20", none, some "Zabrze", none, none⟩),
  (90, ⟨"", some "R", none, none, none, none, none, none⟩),
  (91, ⟨"", some "R", none, none, none, none, none, none⟩),
  (92, ⟨"", some "R", none, none, none, none, none, none⟩),
  (93, ⟨"", some "R", none, none, none, none, none, none⟩),
  (127, ⟨"", some "R", none, none, none, none, none, none⟩),
  (35, ⟨"", some "R", some "14:27", none, none, some "Gliwice", none, none⟩)],
  "to Gliwice"⟩

/-- train 4602 -/
def train_ko1_4602 : CodedSection := ⟨"IC - IC", 4602, "4602", "Intercity", "from Katowice", [
  (10, ⟨"", some "IC", none, some "14:07", none, some "Katowice", none, none⟩),
  (83, ⟨"", some "IC", none, none, none, none, none, none⟩),
  (101, ⟨"", some "IC", none, none, none, none, none, none⟩),
  (84, ⟨"", some "IC", none, none, none, none, none, none⟩),
  (121, ⟨"", some "IC", none, none, none, none, none, none⟩),
  (1, ⟨"", some "R", some "14:13", some "14:13", none, some "Chorz�w Batory", none, none⟩),
  (77, ⟨"", some "IC", none, none, none, none, none, none⟩),
  (144, ⟨"", some "IC", none, none, none, none, none, none⟩),
  (119, ⟨"", some "IC", none, none, none, none, none, none⟩),
  (40, ⟨"", some "IC", none, none, none, none, none, none⟩),
  (86, ⟨"", some "IC", none, none, none, none, none, none⟩),
  (142, ⟨"", some "IC", none, none, none, none, none, none⟩),
  (87, ⟨"", some "IC", none, none, none, none, none, none⟩),
  (126, ⟨"", some "IC", none, none, none, none, none, none⟩),
  (30, ⟨"", some "IC", some "14:23", some "14:23", none, some "Zabrze", none, none⟩),
  (90, ⟨"", some "IC", none, none, none, none, none, none⟩),
  (91, ⟨"", some "IC", none, none, none, none, none, none⟩),
  (92, ⟨"", some "IC", none, none, none, none, none, none⟩),
  (93, ⟨"", some "IC", none, none, none, none, none, none⟩),
  (127, ⟨"", some "IC", none, none, none, none, none, none⟩),
  (38, ⟨"", some "IC", some "14:30", some "14:32", none, some "Gliwice", none, none⟩),
  (113, ⟨"", some "IC", none, none, none, none, none, none⟩)],
  "to Wrocław Główny"⟩

/-- train 4 -/
def train_ko1_4 : CodedSection := ⟨"KS - Os", 4, "4", "S1", "from Katowice", [
  (14, ⟨"", some "R", none, some "14:10", none, some "Katowice", none, none⟩),
  (83, ⟨"", some "R", none, none, none, none, none, none⟩),
  (101, ⟨"", some "R", some "14:13", some "14:13", none, some "Katowice Załęże", none, none⟩),
  (84, ⟨"", some "R", none, none, none, none, none, none⟩),
  (121, ⟨"", some "R", none, none, none, none, none, none⟩),
  (1, ⟨"", some "R", some "14:16", some "14:16", none, some "Chorzów Batory", none, none⟩),
  (77, ⟨"", some "R", none, none, none, none, none, none⟩),
  (144, ⟨"", some "R", some "14:19", some "14:19", none, some "Świętochłowice", none, none⟩),
  (119, ⟨"", some "R", none, none, none, none, none, none⟩),
  (40, ⟨"", some "R", some "14:23", some "14:23", none, some "Ruda Chebzie", none, none⟩),
  (86, ⟨"", some "R", none, none, none, none, none, none⟩),
  (142, ⟨"", some "R", some "14:25", some "14:25", none, some "Ruda Śląska", none, none⟩),
  (87, ⟨"", some "R", none, none, none, none, none, none⟩),
  (126, ⟨"", some "R", none, none, none, none, none, none⟩),
  (30, ⟨"", some "R", some "14:30", some "14:30", none, some "Zabrze", none, none⟩),
  (90, ⟨"", some "R", none, none, none, none, none, none⟩),
  (91, ⟨"", some "R", none, none, none, none, none, none⟩),
  (92, ⟨"", some "R", none, none, none, none, none, none⟩),
  (93, ⟨"", some "R", none, none, none, none, none, none⟩),
  (127, ⟨"", some "R", none, none, none, none, none, none⟩),
  (35, ⟨"", some "R", some "14:37", none, none, some "Gliwice", none, none⟩)],
  "to Gliwice"⟩

/-- train 102 -/
def train_ko1_102_first : CodedSection := ⟨"KS - Os", 102, "102", "S8", "from Katowice", [
  (16, ⟨"", some "R", none, some "14:15", none, some "Katowice", none, none⟩),
  (83, ⟨"", some "R", none, none, none, none, none, none⟩),
  (101, ⟨"", some "R", some "14:18", some "14:18", none, some "Katowice Załęże", none, none⟩),
  (84, ⟨"", some "R", none, none, none, none, none, none⟩),
  (121, ⟨"", some "R", none, none, none, none, none, none⟩),
  (3, ⟨"", some "R", some "14:22", some "14:23", none, some "Chorzów Batory", none, none⟩),
  (97, ⟨"", some "R", none, none, none, none, none, none⟩)],
  "to Bytom"⟩

/-- train 6 -/
def train_ko1_6 : CodedSection := ⟨"KS - Os", 6, "6", "S1", "from Katowice", [
  (14, ⟨"", some "R", none, some "14:20", none, some "Katowice", none, none⟩),
  (83, ⟨"", some "R", none, none, none, none, none, none⟩),
  (101, ⟨"", some "R", some "14:23", some "14:23", none, some "Katowice Załęże", none, none⟩),
  (84, ⟨"", some "R", none, none, none, none, none, none⟩),
  (121, ⟨"", some "R", none, none, none, none, none, none⟩),
  (1, ⟨"", some "R", some "14:26", some "14:26", none, some "Chorzów Batory", none, none⟩),
  (77, ⟨"", some "R", none, none, none, none, none, none⟩),
  (144, ⟨"", some "R", some "14:29", some "14:29", none, some "Świętochłowice", none, none⟩),
  (119, ⟨"", some "R", none, none, none, none, none, none⟩),
  (40, ⟨"", some "R", some "14:33", some "14:33", none, some "Ruda Chebzie", none, none⟩),
  (86, ⟨"", some "R", none, none, none, none, none, none⟩),
  (142, ⟨"", some "R", some "14:35", some "14:35", none, some "Ruda Śląska", none, none⟩),
  (87, ⟨"", some "R", none, none, none, none, none, none⟩),
  (126, ⟨"", some "R", none, none, none, none, none, none⟩),
  (30, ⟨"", some "R", some "14:40", some "14:40", none, some "Zabrze", none, none⟩),
  (90, ⟨"", some "R", none, none, none, none, none, none⟩),
  (91, ⟨"", some "R", none, none, none, none, none, none⟩),
  (92, ⟨"", some "R", none, none, none, none, none, none⟩),
  (93, ⟨"", some "R", none, none, none, none, none, none⟩),
  (127, ⟨"", some "R", none, none, none, none, none, none⟩),
  (35, ⟨"", some "R", some "14:47", none, none, some "Gliwice", none, none⟩)],
  "to Gliwice"⟩

/-- train 8 -/
def train_ko1_8 : CodedSection := ⟨"KS - Os", 8, "8", "S1", "from Katowice", [
  (14, ⟨"", some "R", none, some "14:30", none, some "Katowice", none, none⟩),
  (83, ⟨"", some "R", none, none, none, none, none, none⟩),
  (101, ⟨"", some "R", some "14:33", some "14:33", none, some "Katowice Załęże", none, none⟩),
  (84, ⟨"", some "R", none, none, none, none, none, none⟩),
  (121, ⟨"", some "R", none, none, none, none, none, none⟩),
  (1, ⟨"", some "R", some "14:36", some "14:36", none, some "Chorzów Batory", none, none⟩),
  (77, ⟨"", some "R", none, none, none, none, none, none⟩),
  (144, ⟨"", some "R", some "14:39", some "14:39", none, some "Świętochłowice", none, none⟩),
  (119, ⟨"", some "R", none, none, none, none, none, none⟩),
  (40, ⟨"", some "R", some "14:43", some "14:43", none, some "Ruda Chebzie", none, none⟩),
  (86, ⟨"", some "R", none, none, none, none, none, none⟩),
  (142, ⟨"", some "R", some "14:45", some "14:45", none, some "Ruda Śląska", none, none⟩),
  (87, ⟨"", some "R", none, none, none, none, none, none⟩),
  (126, ⟨"", some "R", none, none, none, none, none, none⟩),
  (30, ⟨"", some "R", some "14:50", some "14:50", none, some "Zabrze", none, none⟩),
  (90, ⟨"", some "R", none, none, none, none, none, none⟩),
  (91, ⟨"", some "R", none, none, none, none, none, none⟩),
  (92, ⟨"", some "R", none, none, none, none, none, none⟩),
  (93, ⟨"", some "R", none, none, none, none, none, none⟩),
  (127, ⟨"", some "R", none, none, none, none, none, none⟩),
  (35, ⟨"", some "R", some "14:57", none, none, some "Gliwice", none, none⟩)],
  "to Gliwice"⟩

/-- train 4604 -/
def train_ko1_4604 : CodedSection := ⟨"IC - IC", 4604, "4604", "Intercity", "from Katowice", [
  (10, ⟨"", some "IC", none, some "14:37", none, some "Katowice", none, none⟩),
  (83, ⟨"", some "IC", none, none, none, none, none, none⟩),
  (101, ⟨"", some "IC", none, none, none, none, none, none⟩),
  (84, ⟨"", some "IC", none, none, none, none, none, none⟩),
  (121, ⟨"", some "IC", none, none, none, none, none, none⟩),
  (1, ⟨"", some "R", some "14:43", some "14:43", none, some "Chorz�w Batory", none, none⟩),
  (77, ⟨"", some "IC", none, none, none, none, none, none⟩),
  (144, ⟨"", some "IC", none, none, none, none, none, none⟩),
  (119, ⟨"", some "IC", none, none, none, none, none, none⟩),
  (40, ⟨"", some "IC", none, none, none, none, none, none⟩),
  (86, ⟨"", some "IC", none, none, none, none, none, none⟩),
  (142, ⟨"", some "IC", none, none, none, none, none, none⟩),
  (87, ⟨"", some "IC", none, none, none, none, none, none⟩),
  (126, ⟨"", some "IC", none, none, none, none, none, none⟩),
  (30, ⟨"", some "IC", some "14:53", some "14:53", none, some "Zabrze", none, none⟩),
  (90, ⟨"", some "IC", none, none, none, none, none, none⟩),
  (91, ⟨"", some "IC", none, none, none, none, none, none⟩),
  (92, ⟨"", some "IC", none, none, none, none, none, none⟩),
  (93, ⟨"", some "IC", none, none, none, none, none, none⟩),
  (127, ⟨"", some "IC", none, none, none, none, none, none⟩),
  (38, ⟨"", some "IC", some "15:00", some "15:02", none, some "Gliwice", none, none⟩),
  (113, ⟨"", some "IC", none, none, none, none, none, none⟩)],
  "to Wrocław Główny"⟩

/-- train 10 -/
def train_ko1_10 : CodedSection := ⟨"KS - Os", 10, "10", "S1", "from Katowice", [
  (14, ⟨"", some "R", none, some "14:40", none, some "Katowice", none, none⟩),
  (83, ⟨"", some "R", none, none, none, none, none, none⟩),
  (101, ⟨"", some "R", some "14:43", some "14:43", none, some "Katowice Załęże", none, none⟩),
  (84, ⟨"", some "R", none, none, none, none, none, none⟩),
  (121, ⟨"", some "R", none, none, none, none, none, none⟩),
  (1, ⟨"", some "R", some "14:46", some "14:46", none, some "Chorzów Batory", none, none⟩),
  (77, ⟨"", some "R", none, none, none, none, none, none⟩),
  (144, ⟨"", some "R", some "14:49", some "14:49", none, some "Świętochłowice", none, none⟩),
  (119, ⟨"", some "R", none, none, none, none, none, none⟩),
  (40, ⟨"", some "R", some "14:53", some "14:53", none, some "Ruda Chebzie", none, none⟩),
  (86, ⟨"", some "R", none, none, none, none, none, none⟩),
  (142, ⟨"", some "R", some "14:55", some "14:55", none, some "Ruda Śląska", none, none⟩),
  (87, ⟨"", some "R", none, none, none, none, none, none⟩),
  (126, ⟨"", some "R", none, none, none, none, none, none⟩),
  (30, ⟨"", some "R", some "15:00", some "15:00", none, some "Zabrze", none, none⟩),
  (90, ⟨"", some "R", none, none, none, none, none, none⟩),
  (91, ⟨"", some "R", none, none, none, none, none, none⟩),
  (92, ⟨"", some "R", none, none, none, none, none, none⟩),
  (93, ⟨"", some "R", none, none, none, none, none, none⟩),
  (127, ⟨"", some "R", none, none, none, none, none, none⟩),
  (35, ⟨"", some "R", some "15:07", none, none, some "Gliwice", none, none⟩)],
  "to Gliwice"⟩

/-- train 102 -/
def train_ko1_102 : CodedSection := ⟨"KS - Os", 102, "102", "S8", "from Katowice", [
  (16, ⟨"", some "R", none, some "14:45", none, some "Katowice", none, none⟩),
  (83, ⟨"", some "R", none, none, none, none, none, none⟩),
  (101, ⟨"", some "R", some "14:48", some "14:48", none, some "Katowice Załęże", none, none⟩),
  (84, ⟨"", some "R", none, none, none, none, none, none⟩),
  (121, ⟨"", some "R", none, none, none, none, none, none⟩),
  (3, ⟨"", some "R", some "14:52", some "14:53", none, some "Chorzów Batory", none, none⟩),
  (97, ⟨"", some "R", none, none, none, none, none, none⟩)],
  "to Bytom"⟩

/-- train 12 -/
def train_ko1_12 : CodedSection := ⟨"KS - Os", 12, "12", "S1", "from Katowice", [
  (14, ⟨"", some "R", none, some "14:50", none, some "Katowice", none, none⟩),
  (83, ⟨"", some "R", none, none, none, none, none, none⟩),
  (101, ⟨"", some "R", some "14:53", some "14:53", none, some "Katowice Załęże", none, none⟩),
  (84, ⟨"", some "R", none, none, none, none, none, none⟩),
  (121, ⟨"", some "R", none, none, none, none, none, none⟩),
  (1, ⟨"", some "R", some "14:56", some "14:56", none, some "Chorzów Batory", none, none⟩),
  (77, ⟨"", some "R", none, none, none, none, none, none⟩),
  (144, ⟨"", some "R", some "14:59", some "14:59", none, some "Świętochłowice", none, none⟩),
  (119, ⟨"", some "R", none, none, none, none, none, none⟩),
  (40, ⟨"", some "R", some "15:03", some "15:03", none, some "Ruda Chebzie", none, none⟩),
  (86, ⟨"", some "R", none, none, none, none, none, none⟩),
  (142, ⟨"", some "R", some "15:05", some "15:05", none, some "Ruda Śląska", none, none⟩),
  (87, ⟨"", some "R", none, none, none, none, none, none⟩),
  (126, ⟨"", some "R", none, none, none, none, none, none⟩),
  (30, ⟨"", some "R", some "15:10", some "15:10", none, some "Zabrze", none, none⟩),
  (90, ⟨"", some "R", none, none, none, none, none, none⟩),
  (91, ⟨"", some "R", none, none, none, none, none, none⟩),
  (92, ⟨"", some "R", none, none, none, none, none, none⟩),
  (93, ⟨"", some "R", none, none, none, none, none, none⟩),
  (127, ⟨"", some "R", none, none, none, none, none, none⟩),
  (35, ⟨"", some "R", some "15:17", none, none, some "Gliwice", none, none⟩)],
  "to Gliwice"⟩

/-- train 1 -/
def train_ko1_1 : CodedSection := ⟨"KS - Os", 1, "1", "S1 ", "from Gliwice", [
  (34, ⟨"", some "R", none, some "13:53", none, some "Gliwice", none, none⟩),
  (78, ⟨"", some "R", none, none, none, none, none, none⟩),
  (79, ⟨"", some "R", none, none, none, none, none, none⟩),
  (80, ⟨"", some "R", none, none, none, none, none, none⟩),
  (81, ⟨"", some "R", none, none, none, none, none, none⟩),
  (120, ⟨"", some "R", none, none, none, none, none, none⟩),
  (31, ⟨"", some "R", some "14:01", some "14:01", none, some "Zabrze", none, none⟩),
  (94, ⟨"", some "R", none, none, none, none, none, none⟩),
  (95, ⟨"", some "R", none, none, none, none, none, none⟩),
  (143, ⟨"", some "R", some "14:06", some "14:06", none, some "Ruda Slaska", none, none⟩),
  (128, ⟨"", some "R", none, none, none, none, none, none⟩),
  (41, ⟨"", some "R", some "14:08", some "14:08", none, some "Ruda Chebzie", none, none⟩),
  (85, ⟨"", some "R", none, none, none, none, none, none⟩),
  (145, ⟨"", some "R", some "14:11", some "14:11", none, some "Swietochlowice", none, none⟩),
  (125, ⟨"", some "R", none, none, none, none, none, none⟩),
  (2, ⟨"", some "R", some "14:15", some "14:15", none, some "Chorzów Batory", none, none⟩),
  (76, ⟨"", some "R", none, none, none, none, none, none⟩),
  (130, ⟨"", some "R", none, none, none, none, none, none⟩),
  (133, ⟨"", some "R", some "14:18", some "14:18", none, some "Katowice Załęże", none, none⟩),
  (122, ⟨"", some "R", none, none, none, none, none, none⟩),
  (15, ⟨"", some "R", some "14:21", none, none, some "Katowice", none, none⟩)],
  "to Katowice"⟩

/-- train 101 -/
def train_ko1_101 : CodedSection := ⟨"KS - Os", 101, "101", "S8", "from Bytom", [
  (98, ⟨"", some "R", none, none, none, none, none, none⟩),
  (4, ⟨"", some "R", some "14:20", some "14:21", none, some "Chorzów Batory", none, none⟩),
  (76, ⟨"", some "R", none, none, none, none, none, none⟩),
  (130, ⟨"", some "R", none, none, none, none, none, none⟩),
  (133, ⟨"", some "R", some "14:24", some "14:24", none, some "Katowice Załęże", none, none⟩),
  (122, ⟨"", some "R", none, none, none, none, none, none⟩),
  (39, ⟨"", some "R", some "14:28", none, none, some "Katowice", none, none⟩)],
  "to Katowice"⟩

/-- train 3 -/
def train_ko1_3 : CodedSection := ⟨"KS - Os", 3, "3", "S1 ", "from Gliwice", [
  (34, ⟨"", some "R", none, some "14:03", none, some "Gliwice", none, none⟩),
  (78, ⟨"", some "R", none, none, none, none, none, none⟩),
  (79, ⟨"", some "R", none, none, none, none, none, none⟩),
  (80, ⟨"", some "R", none, none, none, none, none, none⟩),
  (81, ⟨"", some "R", none, none, none, none, none, none⟩),
  (120, ⟨"", some "R", none, none, none, none, none, none⟩),
  (31, ⟨"", some "R", some "14:11", some "14:11", none, some "Zabrze", none, none⟩),
  (94, ⟨"", some "R", none, none, none, none, none, none⟩),
  (95, ⟨"", some "R", none, none, none, none, none, none⟩),
  (143, ⟨"", some "R", some "14:16", some "14:16", none, some "Ruda Slaska", none, none⟩),
  (128, ⟨"", some "R", none, none, none, none, none, none⟩),
  (41, ⟨"", some "R", some "14:18", some "14:18", none, some "Ruda Chebzie", none, none⟩),
  (85, ⟨"", some "R", none, none, none, none, none, none⟩),
  (145, ⟨"", some "R", some "14:21", some "14:21", none, some "Swietochlowice", none, none⟩),
  (125, ⟨"", some "R", none, none, none, none, none, none⟩),
  (2, ⟨"", some "R", some "14:25", some "14:25", none, some "Chorzów Batory", none, none⟩),
  (76, ⟨"", some "R", none, none, none, none, none, none⟩),
  (130, ⟨"", some "R", none, none, none, none, none, none⟩),
  (133, ⟨"", some "R", some "14:28", some "14:28", none, some "Katowice Załęże", none, none⟩),
  (122, ⟨"", some "R", none, none, none, none, none, none⟩),
  (15, ⟨"", some "R", some "14:31", none, none, some "Katowice", none, none⟩)],
  "to Katowice"⟩

/-- train 6401 -/
def train_ko1_6401 : CodedSection := ⟨"IC - IC", 6401, "6401", "Intercity", "from Wrocław", [
  (117, ⟨"", some "IC", none, none, none, none, none, none⟩),
  (33, ⟨"", some "IC", some "14:08", some "14:14", none, some "Gliwice", none, none⟩),
  (78, ⟨"", some "IC", none, none, none, none, none, none⟩),
  (79, ⟨"", some "IC", none, none, none, none, none, none⟩),
  (80, ⟨"", some "IC", none, none, none, none, none, none⟩),
  (81, ⟨"", some "IC", none, none, none, none, none, none⟩),
  (120, ⟨"", some "IC", none, none, none, none, none, none⟩),
  (31, ⟨"", some "IC", some "14:22", some "14:22", none, some "Zabrze", none, none⟩),
  (94, ⟨"", some "IC", none, none, none, none, none, none⟩),
  (95, ⟨"", some "IC", none, none, none, none, none, none⟩),
  (143, ⟨"", some "IC", none, none, none, none, none, none⟩),
  (128, ⟨"", some "IC", none, none, none, none, none, none⟩),
  (41, ⟨"", some "IC", none, none, none, none, none, none⟩),
  (85, ⟨"", some "IC", none, none, none, none, none, none⟩),
  (145, ⟨"", some "IC", none, none, none, none, none, none⟩),
  (125, ⟨"", some "IC", none, none, none, none, none, none⟩),
  (2, ⟨"", some "IC", none, none, none, none, none, none⟩),
  (76, ⟨"", some "IC", none, none, none, none, none, none⟩),
  (130, ⟨"", some "IC", none, none, none, none, none, none⟩),
  (133, ⟨"", some "IC", none, none, none, none, none, none⟩),
  (122, ⟨"", some "IC", none, none, none, none, none, none⟩),
  (13, ⟨"", some "IC", some "14:38", none, none, some "Katowice", none, none⟩)],
  "to Katowice"⟩

/-- train 5 -/
def train_ko1_5 : CodedSection := ⟨"KS - Os", 5, "5", "S1 ", "from Gliwice", [
  (34, ⟨"", some "R", none, some "14:18", none, some "Gliwice", none, none⟩),
  (78, ⟨"", some "R", none, none, none, none, none, none⟩),
  (79, ⟨"", some "R", none, none, none, none, none, none⟩),
  (80, ⟨"", some "R", none, none, none, none, none, none⟩),
  (81, ⟨"", some "R", none, none, none, none, none, none⟩),
  (120, ⟨"", some "R", none, none, none, none, none, none⟩),
  (31, ⟨"", some "R", some "14:26", some "14:26", none, some "Zabrze", none, none⟩),
  (94, ⟨"", some "R", none, none, none, none, none, none⟩),
  (95, ⟨"", some "R", none, none, none, none, none, none⟩),
  (143, ⟨"", some "R", some "14:31", some "14:31", none, some "Ruda Slaska", none, none⟩),
  (128, ⟨"", some "R", none, none, none, none, none, none⟩),
  (41, ⟨"", some "R", some "14:33", some "14:33", none, some "Ruda Chebzie", none, none⟩),
  (85, ⟨"", some "R", none, none, none, none, none, none⟩),
  (145, ⟨"", some "R", some "14:36", some "14:36", none, some "Swietochlowice", none, none⟩),
  (125, ⟨"", some "R", none, none, none, none, none, none⟩),
  (2, ⟨"", some "R", some "14:40", some "14:40", none, some "Chorzów Batory", none, none⟩),
  (76, ⟨"", some "R", none, none, none, none, none, none⟩),
  (130, ⟨"", some "R", none, none, none, none, none, none⟩),
  (133, ⟨"", some "R", some "14:43", some "14:43", none, some "Katowice Załęże", none, none⟩),
  (122, ⟨"", some "R", none, none, none, none, none, none⟩),
  (15, ⟨"", some "R", some "14:46", none, none, some "Katowice", none, none⟩)],
  "to Katowice"⟩

/-- train 7 -/
def train_ko1_7 : CodedSection := ⟨"KS - Os", 7, "7", "S1 ", "from Gliwice", [
  (34, ⟨"", some "R", none, some "14:23", none, some "Gliwice", none, none⟩),
  (78, ⟨"", some "R", none, none, none, none, none, none⟩),
  (79, ⟨"", some "R", none, none, none, none, none, none⟩),
  (80, ⟨"", some "R", none, none, none, none, none, none⟩),
  (81, ⟨"", some "R", none, none, none, none, none, none⟩),
  (120, ⟨"", some "R", none, none, none, none, none, none⟩),
  (31, ⟨"", some "R", some "14:31", some "14:31", none, some "Zabrze", none, none⟩),
  (94, ⟨"", some "R", none, none, none, none, none, none⟩),
  (95, ⟨"", some "R", none, none, none, none, none, none⟩),
  (143, ⟨"", some "R", some "14:36", some "14:36", none, some "Ruda Slaska", none, none⟩),
  (128, ⟨"", some "R", none, none, none, none, none, none⟩),
  (41, ⟨"", some "R", some "14:38", some "14:38", none, some "Ruda Chebzie", none, none⟩),
  (85, ⟨"", some "R", none, none, none, none, none, none⟩),
  (145, ⟨"", some "R", some "14:41", some "14:41", none, some "Swietochlowice", none, none⟩),
  (125, ⟨"", some "R", none, none, none, none, none, none⟩),
  (2, ⟨"", some "R", some "14:45", some "14:45", none, some "Chorzów Batory", none, none⟩),
  (76, ⟨"", some "R", none, none, none, none, none, none⟩),
  (130, ⟨"", some "R", none, none, none, none, none, none⟩),
  (133, ⟨"", some "R", some "14:48", some "14:48", none, some "Katowice Załęże", none, none⟩),
  (122, ⟨"", some "R", none, none, none, none, none, none⟩),
  (15, ⟨"", some "R", some "14:51", none, none, some "Katowice", none, none⟩)],
  "to Katowice"⟩

/-- train 103 -/
def train_ko1_103 : CodedSection := ⟨"KS - Os", 103, "103", "S8", "from Bytom", [
  (98, ⟨"", some "R", none, none, none, none, none, none⟩),
  (4, ⟨"", some "R", some "14:50", some "14:51", none, some "Chorzów Batory", none, none⟩),
  (76, ⟨"", some "R", none, none, none, none, none, none⟩),
  (130, ⟨"", some "R", none, none, none, none, none, none⟩),
  (133, ⟨"", some "R", some "14:54", some "14:54", none, some "Katowice Załęże", none, none⟩),
  (122, ⟨"", some "R", none, none, none, none, none, none⟩),
  (39, ⟨"", some "R", some "14:58", none, none, some "Katowice", none, none⟩)],
  "to Katowice"⟩

/-- train 9 -/
def train_ko1_9 : CodedSection := ⟨"KS - Os", 9, "9", "S1 ", "from Gliwice", [
  (34, ⟨"", some "R", none, some "14:33", none, some "Gliwice", none, none⟩),
  (78, ⟨"", some "R", none, none, none, none, none, none⟩),
  (79, ⟨"", some "R", none, none, none, none, none, none⟩),
  (80, ⟨"", some "R", none, none, none, none, none, none⟩),
  (81, ⟨"", some "R", none, none, none, none, none, none⟩),
  (120, ⟨"", some "R", none, none, none, none, none, none⟩),
  (31, ⟨"", some "R", some "14:41", some "14:41", none, some "Zabrze", none, none⟩),
  (94, ⟨"", some "R", none, none, none, none, none, none⟩),
  (95, ⟨"", some "R", none, none, none, none, none, none⟩),
  (143, ⟨"", some "R", some "14:46", some "14:46", none, some "Ruda Slaska", none, none⟩),
  (128, ⟨"", some "R", none, none, none, none, none, none⟩),
  (41, ⟨"", some "R", some "14:48", some "14:48", none, some "Ruda Chebzie", none, none⟩),
  (85, ⟨"", some "R", none, none, none, none, none, none⟩),
  (145, ⟨"", some "R", some "14:51", some "14:51", none, some "Swietochlowice", none, none⟩),
  (125, ⟨"", some "R", none, none, none, none, none, none⟩),
  (2, ⟨"", some "R", some "14:55", some "14:55", none, some "Chorzów Batory", none, none⟩),
  (76, ⟨"", some "R", none, none, none, none, none, none⟩),
  (130, ⟨"", some "R", none, none, none, none, none, none⟩),
  (133, ⟨"", some "R", some "14:58", some "14:58", none, some "Katowice Załęże", none, none⟩),
  (122, ⟨"", some "R", none, none, none, none, none, none⟩),
  (15, ⟨"", some "R", some "15:01", none, none, some "Katowice", none, none⟩)],
  "to Katowice"⟩

/-- train 6403 -/
def train_ko1_6403 : CodedSection := ⟨"IC - IC", 6403, "6403", "Intercity", "from Wrocław", [
  (117, ⟨"", some "IC", none, none, none, none, none, none⟩),
  (33, ⟨"", some "IC", some "14:38", some "14:44", none, some "Gliwice", none, none⟩),
  (78, ⟨"", some "IC", none, none, none, none, none, none⟩),
  (79, ⟨"", some "IC", none, none, none, none, none, none⟩),
  (80, ⟨"", some "IC", none, none, none, none, none, none⟩),
  (81, ⟨"", some "IC", none, none, none, none, none, none⟩),
  (120, ⟨"", some "IC", none, none, none, none, none, none⟩),
  (31, ⟨"", some "IC", some "14:52", some "14:52", none, some "Zabrze", none, none⟩),
  (94, ⟨"", some "IC", none, none, none, none, none, none⟩),
  (95, ⟨"", some "IC", none, none, none, none, none, none⟩),
  (143, ⟨"", some "IC", none, none, none, none, none, none⟩),
  (128, ⟨"", some "IC", none, none, none, none, none, none⟩),
  (41, ⟨"", some "IC", none, none, none, none, none, none⟩),
  (85, ⟨"", some "IC", none, none, none, none, none, none⟩),
  (145, ⟨"", some "IC", none, none, none, none, none, none⟩),
  (125, ⟨"", some "IC", none, none, none, none, none, none⟩),
  (2, ⟨"", some "IC", none, none, none, none, none, none⟩),
  (76, ⟨"", some "IC", none, none, none, none, none, none⟩),
  (130, ⟨"", some "IC", none, none, none, none, none, none⟩),
  (133, ⟨"", some "IC", none, none, none, none, none, none⟩),
  (122, ⟨"", some "IC", none, none, none, none, none, none⟩),
  (13, ⟨"", some "IC", some "15:08", none, none, some "Katowice", none, none⟩)],
  "to Katowice"⟩

/-- train 11 -/
def train_ko1_11 : CodedSection := ⟨"KS - Os", 11, "11", "S1 ", "from Gliwice", [
  (34, ⟨"", some "R", none, some "14:48", none, some "Gliwice", none, none⟩),
  (78, ⟨"", some "R", none, none, none, none, none, none⟩),
  (79, ⟨"", some "R", none, none, none, none, none, none⟩),
  (80, ⟨"", some "R", none, none, none, none, none, none⟩),
  (81, ⟨"", some "R", none, none, none, none, none, none⟩),
  (120, ⟨"", some "R", none, none, none, none, none, none⟩),
  (31, ⟨"", some "R", some "14:56", some "14:56", none, some "Zabrze", none, none⟩),
  (94, ⟨"", some "R", none, none, none, none, none, none⟩),
  (95, ⟨"", some "R", none, none, none, none, none, none⟩),
  (143, ⟨"", some "R", some "15:01", some "15:01", none, some "Ruda Slaska", none, none⟩),
  (128, ⟨"", some "R", none, none, none, none, none, none⟩),
  (41, ⟨"", some "R", some "15:03", some "15:03", none, some "Ruda Chebzie", none, none⟩),
  (85, ⟨"", some "R", none, none, none, none, none, none⟩),
  (145, ⟨"", some "R", some "15:06", some "15:06", none, some "Swietochlowice", none, none⟩),
  (125, ⟨"", some "R", none, none, none, none, none, none⟩),
  (2, ⟨"", some "R", some "15:10", some "15:10", none, some "Chorzów Batory", none, none⟩),
  (76, ⟨"", some "R", none, none, none, none, none, none⟩),
  (130, ⟨"", some "R", none, none, none, none, none, none⟩),
  (133, ⟨"", some "R", some "15:13", some "15:13", none, some "Katowice Załęże", none, none⟩),
  (122, ⟨"", some "R", none, none, none, none, none, none⟩),
  (15, ⟨"", some "R", some "15:16", none, none, some "Katowice", none, none⟩)],
  "to Katowice"⟩

/-- train 14 -/
def train_ko1_14 : CodedSection := ⟨"KS - Os", 14, "14", "S1", "from Katowice", [
  (14, ⟨"", some "R", none, some "15:00", none, some "Katowice", none, none⟩),
  (83, ⟨"", some "R", none, none, none, none, none, none⟩),
  (101, ⟨"", some "R", some "15:03", some "15:03", none, some "Katowice Załęże", none, none⟩),
  (84, ⟨"", some "R", none, none, none, none, none, none⟩),
  (121, ⟨"", some "R", none, none, none, none, none, none⟩),
  (1, ⟨"", some "R", some "15:06", some "15:06", none, some "Chorzów Batory", none, none⟩),
  (77, ⟨"", some "R", none, none, none, none, none, none⟩),
  (144, ⟨"", some "R", some "15:09", some "15:09", none, some "Świętochłowice", none, none⟩),
  (119, ⟨"", some "R", none, none, none, none, none, none⟩),
  (40, ⟨"", some "R", some "15:13", some "15:13", none, some "Ruda Chebzie", none, none⟩),
  (86, ⟨"", some "R", none, none, none, none, none, none⟩),
  (142, ⟨"", some "R", some "15:15", some "15:15", none, some "Ruda Śląska", none, none⟩),
  (87, ⟨"", some "R", none, none, none, none, none, none⟩),
  (126, ⟨"", some "R", none, none, none, none, none, none⟩),
  (30, ⟨"", some "R", some "15:20", some "15:20", none, some "Zabrze", none, none⟩),
  (90, ⟨"", some "R", none, none, none, none, none, none⟩),
  (91, ⟨"", some "R", none, none, none, none, none, none⟩),
  (92, ⟨"", some "R", none, none, none, none, none, none⟩),
  (93, ⟨"", some "R", none, none, none, none, none, none⟩),
  (127, ⟨"", some "R", none, none, none, none, none, none⟩),
  (35, ⟨"", some "R", some "15:27", none, none, some "Gliwice", none, none⟩)],
  "to Gliwice"⟩

/-- train 4606 -/
def train_ko1_4606 : CodedSection := ⟨"IC - IC", 4606, "4606", "Intercity", "from Katowice", [
  (10, ⟨"", some "IC", none, some "15:07", none, some "Katowice", none, none⟩),
  (83, ⟨"", some "IC", none, none, none, none, none, none⟩),
  (101, ⟨"", some "IC", none, none, none, none, none, none⟩),
  (84, ⟨"", some "IC", none, none, none, none, none, none⟩),
  (121, ⟨"", some "IC", none, none, none, none, none, none⟩),
  (1, ⟨"", some "R", some "15:13", some "15:13", none, some "Chorz�w Batory", none, none⟩),
  (77, ⟨"", some "IC", none, none, none, none, none, none⟩),
  (144, ⟨"", some "IC", none, none, none, none, none, none⟩),
  (119, ⟨"", some "IC", none, none, none, none, none, none⟩),
  (40, ⟨"", some "IC", none, none, none, none, none, none⟩),
  (86, ⟨"", some "IC", none, none, none, none, none, none⟩),
  (142, ⟨"", some "IC", none, none, none, none, none, none⟩),
  (87, ⟨"", some "IC", none, none, none, none, none, none⟩),
  (126, ⟨"", some "IC", none, none, none, none, none, none⟩),
  (30, ⟨"", some "IC", some "15:23", some "15:23", none, some "Zabrze", none, none⟩),
  (90, ⟨"", some "IC", none, none, none, none, none, none⟩),
  (91, ⟨"", some "IC", none, none, none, none, none, none⟩),
  (92, ⟨"", some "IC", none, none, none, none, none, none⟩),
  (93, ⟨"", some "IC", none, none, none, none, none, none⟩),
  (127, ⟨"", some "IC", none, none, none, none, none, none⟩),
  (38, ⟨"", some "IC", some "15:30", some "15:32", none, some "Gliwice", none, none⟩),
  (113, ⟨"", some "IC", none, none, none, none, none, none⟩)],
  "to Wrocław Główny"⟩

/-- train 16 -/
def train_ko1_16 : CodedSection := ⟨"KS - Os", 16, "16", "S1", "from Katowice", [
  (14, ⟨"", some "R", none, some "15:10", none, some "Katowice", none, none⟩),
  (83, ⟨"", some "R", none, none, none, none, none, none⟩),
  (101, ⟨"", some "R", some "15:13", some "15:13", none, some "Katowice Załęże", none, none⟩),
  (84, ⟨"", some "R", none, none, none, none, none, none⟩),
  (121, ⟨"", some "R", none, none, none, none, none, none⟩),
  (1, ⟨"", some "R", some "15:16", some "15:16", none, some "Chorzów Batory", none, none⟩),
  (77, ⟨"", some "R", none, none, none, none, none, none⟩),
  (144, ⟨"", some "R", some "15:19", some "15:19", none, some "Świętochłowice", none, none⟩),
  (119, ⟨"", some "R", none, none, none, none, none, none⟩),
  (40, ⟨"", some "R", some "15:23", some "15:23", none, some "Ruda Chebzie", none, none⟩),
  (86, ⟨"", some "R", none, none, none, none, none, none⟩),
  (142, ⟨"", some "R", some "15:25", some "15:25", none, some "Ruda Śląska", none, none⟩),
  (87, ⟨"", some "R", none, none, none, none, none, none⟩),
  (126, ⟨"", some "R", none, none, none, none, none, none⟩),
  (30, ⟨"", some "R", some "15:30", some "15:30", none, some "Zabrze", none, none⟩),
  (90, ⟨"", some "R", none, none, none, none, none, none⟩),
  (91, ⟨"", some "R", none, none, none, none, none, none⟩),
  (92, ⟨"", some "R", none, none, none, none, none, none⟩),
  (93, ⟨"", some "R", none, none, none, none, none, none⟩),
  (127, ⟨"", some "R", none, none, none, none, none, none⟩),
  (35, ⟨"", some "R", some "15:37", none, none, some "Gliwice", none, none⟩)],
  "to Gliwice"⟩

/-- train 106 -/
def train_ko1_106 : CodedSection := ⟨"KS - Os", 106, "106", "S8", "from Katowice", [
  (16, ⟨"", some "R", none, some "15:15", none, some "Katowice", none, none⟩),
  (83, ⟨"", some "R", none, none, none, none, none, none⟩),
  (101, ⟨"", some "R", some "15:18", some "15:18", none, some "Katowice Załęże", none, none⟩),
  (84, ⟨"", some "R", none, none, none, none, none, none⟩),
  (121, ⟨"", some "R", none, none, none, none, none, none⟩),
  (3, ⟨"", some "R", some "15:22", some "15:23", none, some "Chorzów Batory", none, none⟩),
  (97, ⟨"", some "R", none, none, none, none, none, none⟩)],
  "to Bytom"⟩

/-- train 18 -/
def train_ko1_18 : CodedSection := ⟨"KS - Os", 18, "18", "S1", "from Katowice", [
  (14, ⟨"", some "R", none, some "15:20", none, some "Katowice", none, none⟩),
  (83, ⟨"", some "R", none, none, none, none, none, none⟩),
  (101, ⟨"", some "R", some "15:23", some "15:23", none, some "Katowice Załęże", none, none⟩),
  (84, ⟨"", some "R", none, none, none, none, none, none⟩),
  (121, ⟨"", some "R", none, none, none, none, none, none⟩),
  (1, ⟨"", some "R", some "15:26", some "15:26", none, some "Chorzów Batory", none, none⟩),
  (77, ⟨"", some "R", none, none, none, none, none, none⟩),
  (144, ⟨"", some "R", some "15:29", some "15:29", none, some "Świętochłowice", none, none⟩),
  (119, ⟨"", some "R", none, none, none, none, none, none⟩),
  (40, ⟨"", some "R", some "15:33", some "15:33", none, some "Ruda Chebzie", none, none⟩),
  (86, ⟨"", some "R", none, none, none, none, none, none⟩),
  (142, ⟨"", some "R", some "15:35", some "15:35", none, some "Ruda Śląska", none, none⟩),
  (87, ⟨"", some "R", none, none, none, none, none, none⟩),
  (126, ⟨"", some "R", none, none, none, none, none, none⟩),
  (30, ⟨"", some "R", some "15:40", some "15:40", none, some "Zabrze", none, none⟩),
  (90, ⟨"", some "R", none, none, none, none, none, none⟩),
  (91, ⟨"", some "R", none, none, none, none, none, none⟩),
  (92, ⟨"", some "R", none, none, none, none, none, none⟩),
  (93, ⟨"", some "R", none, none, none, none, none, none⟩),
  (127, ⟨"", some "R", none, none, none, none, none, none⟩),
  (35, ⟨"", some "R", some "15:47", none, none, some "Gliwice", none, none⟩)],
  "to Gliwice"⟩

/-- train 20 -/
def train_ko1_20 : CodedSection := ⟨"KS - Os", 20, "20", "S1", "from Katowice", [
  (14, ⟨"", some "R", none, some "15:30", none, some "Katowice", none, none⟩),
  (83, ⟨"", some "R", none, none, none, none, none, none⟩),
  (101, ⟨"", some "R", some "15:33", some "15:33", none, some "Katowice Załęże", none, none⟩),
  (84, ⟨"", some "R", none, none, none, none, none, none⟩),
  (121, ⟨"", some "R", none, none, none, none, none, none⟩),
  (1, ⟨"", some "R", some "15:36", some "15:36", none, some "Chorzów Batory", none, none⟩),
  (77, ⟨"", some "R", none, none, none, none, none, none⟩),
  (144, ⟨"", some "R", some "15:39", some "15:39", none, some "Świętochłowice", none, none⟩),
  (119, ⟨"", some "R", none, none, none, none, none, none⟩),
  (40, ⟨"", some "R", some "15:43", some "15:43", none, some "Ruda Chebzie", none, none⟩),
  (86, ⟨"", some "R", none, none, none, none, none, none⟩),
  (142, ⟨"", some "R", some "15:45", some "15:45", none, some "Ruda Śląska", none, none⟩),
  (87, ⟨"", some "R", none, none, none, none, none, none⟩),
  (126, ⟨"", some "R", none, none, none, none, none, none⟩),
  (30, ⟨"", some "R", some "15:50", some "15:50", none, some "Zabrze", none, none⟩),
  (90, ⟨"", some "R", none, none, none, none, none, none⟩),
  (91, ⟨"", some "R", none, none, none, none, none, none⟩),
  (92, ⟨"", some "R", none, none, none, none, none, none⟩),
  (93, ⟨"", some "R", none, none, none, none, none, none⟩),
  (127, ⟨"", some "R", none, none, none, none, none, none⟩),
  (35, ⟨"", some "R", some "15:57", none, none, some "Gliwice", none, none⟩)],
  "to Gliwice"⟩

/-- train 4608 -/
def train_ko1_4608 : CodedSection := ⟨"IC - IC", 4608, "4608", "Intercity", "from Katowice", [
  (10, ⟨"", some "IC", none, some "15:37", none, some "Katowice", none, none⟩),
  (83, ⟨"", some "IC", none, none, none, none, none, none⟩),
  (101, ⟨"", some "IC", none, none, none, none, none, none⟩),
  (84, ⟨"", some "IC", none, none, none, none, none, none⟩),
  (121, ⟨"", some "IC", none, none, none, none, none, none⟩),
  (1, ⟨"", some "R", some "15:43", some "15:43", none, some "Chorz�w Batory", none, none⟩),
  (77, ⟨"", some "IC", none, none, none, none, none, none⟩),
  (144, ⟨"", some "IC", none, none, none, none, none, none⟩),
  (119, ⟨"", some "IC", none, none, none, none, none, none⟩),
  (40, ⟨"", some "IC", none, none, none, none, none, none⟩),
  (86, ⟨"", some "IC", none, none, none, none, none, none⟩),
  (142, ⟨"", some "IC", none, none, none, none, none, none⟩),
  (87, ⟨"", some "IC", none, none, none, none, none, none⟩),
  (126, ⟨"", some "IC", none, none, none, none, none, none⟩),
  (30, ⟨"", some "IC", some "15:53", some "15:53", none, some "Zabrze", none, none⟩),
  (90, ⟨"", some "IC", none, none, none, none, none, none⟩),
  (91, ⟨"", some "IC", none, none, none, none, none, none⟩),
  (92, ⟨"", some "IC", none, none, none, none, none, none⟩),
  (93, ⟨"", some "IC", none, none, none, none, none, none⟩),
  (127, ⟨"", some "IC", none, none, none, none, none, none⟩),
  (38, ⟨"", some "IC", some "16:00", some "16:02", none, some "Gliwice", none, none⟩),
  (113, ⟨"", some "IC", none, none, none, none, none, none⟩)],
  "to Wrocław Główny"⟩

/-- train 22 -/
def train_ko1_22 : CodedSection := ⟨"KS - Os", 22, "22", "S1", "from Katowice", [
  (14, ⟨"", some "R", none, some "15:40", none, some "Katowice", none, none⟩),
  (83, ⟨"", some "R", none, none, none, none, none, none⟩),
  (101, ⟨"", some "R", some "15:43", some "15:43", none, some "Katowice Załęże", none, none⟩),
  (84, ⟨"", some "R", none, none, none, none, none, none⟩),
  (121, ⟨"", some "R", none, none, none, none, none, none⟩),
  (1, ⟨"", some "R", some "15:46", some "15:46", none, some "Chorzów Batory", none, none⟩),
  (77, ⟨"", some "R", none, none, none, none, none, none⟩),
  (144, ⟨"", some "R", some "15:49", some "15:49", none, some "Świętochłowice", none, none⟩),
  (119, ⟨"", some "R", none, none, none, none, none, none⟩),
  (40, ⟨"", some "R", some "15:53", some "15:53", none, some "Ruda Chebzie", none, none⟩),
  (86, ⟨"", some "R", none, none, none, none, none, none⟩),
  (142, ⟨"", some "R", some "15:55", some "15:55", none, some "Ruda Śląska", none, none⟩),
  (87, ⟨"", some "R", none, none, none, none, none, none⟩),
  (126, ⟨"", some "R", none, none, none, none, none, none⟩),
  (30, ⟨"", some "R", some "16:00", some "16:00", none, some "Zabrze", none, none⟩),
  (90, ⟨"", some "R", none, none, none, none, none, none⟩),
  (91, ⟨"", some "R", none, none, none, none, none, none⟩),
  (92, ⟨"", some "R", none, none, none, none, none, none⟩),
  (93, ⟨"", some "R", none, none, none, none, none, none⟩),
  (127, ⟨"", some "R", none, none, none, none, none, none⟩),
  (35, ⟨"", some "R", some "16:07", none, none, some "Gliwice", none, none⟩)],
  "to Gliwice"⟩

/-- train 108 -/
def train_ko1_108 : CodedSection := ⟨"KS - Os", 108, "108", "S8", "from Katowice", [
  (16, ⟨"", some "R", none, some "15:45", none, some "Katowice", none, none⟩),
  (83, ⟨"", some "R", none, none, none, none, none, none⟩),
  (101, ⟨"", some "R", some "15:48", some "15:48", none, some "Katowice Załęże", none, none⟩),
  (84, ⟨"", some "R", none, none, none, none, none, none⟩),
  (121, ⟨"", some "R", none, none, none, none, none, none⟩),
  (3, ⟨"", some "R", some "15:52", some "15:53", none, some "Chorzów Batory", none, none⟩),
  (97, ⟨"", some "R", none, none, none, none, none, none⟩)],
  "to Bytom"⟩

/-- train 24 -/
def train_ko1_24 : CodedSection := ⟨"KS - Os", 24, "24", "S1", "from Katowice", [
  (14, ⟨"", some "R", none, some "15:50", none, some "Katowice", none, none⟩),
  (83, ⟨"", some "R", none, none, none, none, none, none⟩),
  (101, ⟨"", some "R", some "15:53", some "15:53", none, some "Katowice Załęże", none, none⟩),
  (84, ⟨"", some "R", none, none, none, none, none, none⟩),
  (121, ⟨"", some "R", none, none, none, none, none, none⟩),
  (1, ⟨"", some "R", some "15:56", some "15:56", none, some "Chorzów Batory", none, none⟩),
  (77, ⟨"", some "R", none, none, none, none, none, none⟩),
  (144, ⟨"", some "R", some "15:59", some "15:59", none, some "Świętochłowice", none, none⟩),
  (119, ⟨"", some "R", none, none, none, none, none, none⟩),
  (40, ⟨"", some "R", some "16:03", some "16:03", none, some "Ruda Chebzie", none, none⟩),
  (86, ⟨"", some "R", none, none, none, none, none, none⟩),
  (142, ⟨"", some "R", some "16:05", some "16:05", none, some "Ruda Śląska", none, none⟩),
  (87, ⟨"", some "R", none, none, none, none, none, none⟩),
  (126, ⟨"", some "R", none, none, none, none, none, none⟩),
  (30, ⟨"", some "R", some "16:10", some "16:10", none, some "Zabrze", none, none⟩),
  (90, ⟨"", some "R", none, none, none, none, none, none⟩),
  (91, ⟨"", some "R", none, none, none, none, none, none⟩),
  (92, ⟨"", some "R", none, none, none, none, none, none⟩),
  (93, ⟨"", some "R", none, none, none, none, none, none⟩),
  (127, ⟨"", some "R", none, none, none, none, none, none⟩),
  (35, ⟨"", some "R", some "16:17", none, none, some "Gliwice", none, none⟩)],
  "to Gliwice"⟩

/-- train 13 -/
def train_ko1_13 : CodedSection := ⟨"KS - Os", 13, "13", "S1 ", "from Gliwice", [
  (34, ⟨"", some "R", none, some "14:53", none, some "Gliwice", none, none⟩),
  (78, ⟨"", some "R", none, none, none, none, none, none⟩),
  (79, ⟨"", some "R", none, none, none, none, none, none⟩),
  (80, ⟨"", some "R", none, none, none, none, none, none⟩),
  (81, ⟨"", some "R", none, none, none, none, none, none⟩),
  (120, ⟨"", some "R", none, none, none, none, none, none⟩),
  (31, ⟨"", some "R", some "15:01", some "15:01", none, some "Zabrze", none, none⟩),
  (94, ⟨"", some "R", none, none, none, none, none, none⟩),
  (95, ⟨"", some "R", none, none, none, none, none, none⟩),
  (143, ⟨"", some "R", some "15:06", some "15:06", none, some "Ruda Slaska", none, none⟩),
  (128, ⟨"", some "R", none, none, none, none, none, none⟩),
  (41, ⟨"", some "R", some "15:08", some "15:08", none, some "Ruda Chebzie", none, none⟩),
  (85, ⟨"", some "R", none, none, none, none, none, none⟩),
  (145, ⟨"", some "R", some "15:11", some "15:11", none, some "Swietochlowice", none, none⟩),
  (125, ⟨"", some "R", none, none, none, none, none, none⟩),
  (2, ⟨"", some "R", some "15:15", some "15:15", none, some "Chorzów Batory", none, none⟩),
  (76, ⟨"", some "R", none, none, none, none, none, none⟩),
  (130, ⟨"", some "R", none, none, none, none, none, none⟩),
  (133, ⟨"", some "R", some "15:18", some "15:18", none, some "Katowice Załęże", none, none⟩),
  (122, ⟨"", some "R", none, none, none, none, none, none⟩),
  (15, ⟨"", some "R", some "15:21", none, none, some "Katowice", none, none⟩)],
  "to Katowice"⟩

/-- train 105 -/
def train_ko1_105 : CodedSection := ⟨"KS - Os", 105, "105", "S8", "from Bytom", [
  (98, ⟨"", some "R", none, none, none, none, none, none⟩),
  (4, ⟨"", some "R", some "15:20", some "15:21", none, some "Chorzów Batory", none, none⟩),
  (76, ⟨"", some "R", none, none, none, none, none, none⟩),
  (130, ⟨"", some "R", none, none, none, none, none, none⟩),
  (133, ⟨"", some "R", some "15:24", some "15:24", none, some "Katowice Załęże", none, none⟩),
  (122, ⟨"", some "R", none, none, none, none, none, none⟩),
  (39, ⟨"", some "R", some "15:28", none, none, some "Katowice", none, none⟩)],
  "to Katowice"⟩

/-- train 15 -/
def train_ko1_15 : CodedSection := ⟨"KS - Os", 15, "15", "S1 ", "from Gliwice", [
  (34, ⟨"", some "R", none, some "15:03", none, some "Gliwice", none, none⟩),
  (78, ⟨"", some "R", none, none, none, none, none, none⟩),
  (79, ⟨"", some "R", none, none, none, none, none, none⟩),
  (80, ⟨"", some "R", none, none, none, none, none, none⟩),
  (81, ⟨"", some "R", none, none, none, none, none, none⟩),
  (120, ⟨"", some "R", none, none, none, none, none, none⟩),
  (31, ⟨"", some "R", some "15:11", some "15:11", none, some "Zabrze", none, none⟩),
  (94, ⟨"", some "R", none, none, none, none, none, none⟩),
  (95, ⟨"", some "R", none, none, none, none, none, none⟩),
  (143, ⟨"", some "R", some "15:16", some "15:16", none, some "Ruda Slaska", none, none⟩),
  (128, ⟨"", some "R", none, none, none, none, none, none⟩),
  (41, ⟨"", some "R", some "15:18", some "15:18", none, some "Ruda Chebzie", none, none⟩),
  (85, ⟨"", some "R", none, none, none, none, none, none⟩),
  (145, ⟨"", some "R", some "15:21", some "15:21", none, some "Swietochlowice", none, none⟩),
  (125, ⟨"", some "R", none, none, none, none, none, none⟩),
  (2, ⟨"", some "R", some "15:25", some "15:25", none, some "Chorzów Batory", none, none⟩),
  (76, ⟨"", some "R", none, none, none, none, none, none⟩),
  (130, ⟨"", some "R", none, none, none, none, none, none⟩),
  (133, ⟨"", some "R", some "15:28", some "15:28", none, some "Katowice Załęże", none, none⟩),
  (122, ⟨"", some "R", none, none, none, none, none, none⟩),
  (15, ⟨"", some "R", some "15:31", none, none, some "Katowice", none, none⟩)],
  "to Katowice"⟩

/-- train 6405 -/
def train_ko1_6405 : CodedSection := ⟨"IC - IC", 6405, "6405", "Intercity", "from Wrocław", [
  (117, ⟨"", some "IC", none, none, none, none, none, none⟩),
  (33, ⟨"", some "IC", some "15:08", some "15:14", none, some "Gliwice", none, none⟩),
  (78, ⟨"", some "IC", none, none, none, none, none, none⟩),
  (79, ⟨"", some "IC", none, none, none, none, none, none⟩),
  (80, ⟨"", some "IC", none, none, none, none, none, none⟩),
  (81, ⟨"", some "IC", none, none, none, none, none, none⟩),
  (120, ⟨"", some "IC", none, none, none, none, none, none⟩),
  (31, ⟨"", some "IC", some "15:22", some "15:22", none, some "Zabrze", none, none⟩),
  (94, ⟨"", some "IC", none, none, none, none, none, none⟩),
  (95, ⟨"", some "IC", none, none, none, none, none, none⟩),
  (143, ⟨"", some "IC", none, none, none, none, none, none⟩),
  (128, ⟨"", some "IC", none, none, none, none, none, none⟩),
  (41, ⟨"", some "IC", none, none, none, none, none, none⟩),
  (85, ⟨"", some "IC", none, none, none, none, none, none⟩),
  (145, ⟨"", some "IC", none, none, none, none, none, none⟩),
  (125, ⟨"", some "IC", none, none, none, none, none, none⟩),
  (2, ⟨"", some "IC", none, none, none, none, none, none⟩),
  (76, ⟨"", some "IC", none, none, none, none, none, none⟩),
  (130, ⟨"", some "IC", none, none, none, none, none, none⟩),
  (133, ⟨"", some "IC", none, none, none, none, none, none⟩),
  (122, ⟨"", some "IC", none, none, none, none, none, none⟩),
  (13, ⟨"", some "IC", some "15:38", none, none, some "Katowice", none, none⟩)],
  "to Katowice"⟩

/-- train 17 -/
def train_ko1_17 : CodedSection := ⟨"KS - Os", 17, "17", "S1 ", "from Gliwice", [
  (34, ⟨"", some "R", none, some "15:18", none, some "Gliwice", none, none⟩),
  (78, ⟨"", some "R", none, none, none, none, none, none⟩),
  (79, ⟨"", some "R", none, none, none, none, none, none⟩),
  (80, ⟨"", some "R", none, none, none, none, none, none⟩),
  (81, ⟨"", some "R", none, none, none, none, none, none⟩),
  (120, ⟨"", some "R", none, none, none, none, none, none⟩),
  (31, ⟨"", some "R", some "15:26", some "15:26", none, some "Zabrze", none, none⟩),
  (94, ⟨"", some "R", none, none, none, none, none, none⟩),
  (95, ⟨"", some "R", none, none, none, none, none, none⟩),
  (143, ⟨"", some "R", some "15:31", some "15:31", none, some "Ruda Slaska", none, none⟩),
  (128, ⟨"", some "R", none, none, none, none, none, none⟩),
  (41, ⟨"", some "R", some "15:33", some "15:33", none, some "Ruda Chebzie", none, none⟩),
  (85, ⟨"", some "R", none, none, none, none, none, none⟩),
  (145, ⟨"", some "R", some "15:36", some "15:36", none, some "Swietochlowice", none, none⟩),
  (125, ⟨"", some "R", none, none, none, none, none, none⟩),
  (2, ⟨"", some "R", some "15:40", some "15:40", none, some "Chorzów Batory", none, none⟩),
  (76, ⟨"", some "R", none, none, none, none, none, none⟩),
  (130, ⟨"", some "R", none, none, none, none, none, none⟩),
  (133, ⟨"", some "R", some "15:43", some "15:43", none, some "Katowice Załęże", none, none⟩),
  (122, ⟨"", some "R", none, none, none, none, none, none⟩),
  (15, ⟨"", some "R", some "15:46", none, none, some "Katowice", none, none⟩)],
  "to Katowice"⟩

/-- train 21 -/
def train_ko1_21 : CodedSection := ⟨"KS - Os", 21, "21", "S1 ", "from Gliwice", [
  (34, ⟨"", some "R", none, some "15:23", none, some "Gliwice", none, none⟩),
  (78, ⟨"", some "R", none, none, none, none, none, none⟩),
  (79, ⟨"", some "R", none, none, none, none, none, none⟩),
  (80, ⟨"", some "R", none, none, none, none, none, none⟩),
  (81, ⟨"", some "R", none, none, none, none, none, none⟩),
  (120, ⟨"", some "R", none, none, none, none, none, none⟩),
  (31, ⟨"", some "R", some "15:31", some "15:31", none, some "Zabrze", none, none⟩),
  (94, ⟨"", some "R", none, none, none, none, none, none⟩),
  (95, ⟨"", some "R", none, none, none, none, none, none⟩),
  (143, ⟨"", some "R", some "15:36", some "15:36", none, some "Ruda Slaska", none, none⟩),
  (128, ⟨"", some "R", none, none, none, none, none, none⟩),
  (41, ⟨"", some "R", some "15:38", some "15:38", none, some "Ruda Chebzie", none, none⟩),
  (85, ⟨"", some "R", none, none, none, none, none, none⟩),
  (145, ⟨"", some "R", some "15:41", some "15:41", none, some "Swietochlowice", none, none⟩),
  (125, ⟨"", some "R", none, none, none, none, none, none⟩),
  (2, ⟨"", some "R", some "15:45", some "15:45", none, some "Chorzów Batory", none, none⟩),
  (76, ⟨"", some "R", none, none, none, none, none, none⟩),
  (130, ⟨"", some "R", none, none, none, none, none, none⟩),
  (133, ⟨"", some "R", some "15:48", some "15:48", none, some "Katowice Załęże", none, none⟩),
  (122, ⟨"", some "R", none, none, none, none, none, none⟩),
  (15, ⟨"", some "R", some "15:51", none, none, some "Katowice", none, none⟩)],
  "to Katowice"⟩

/-- train 107 -/
def train_ko1_107 : CodedSection := ⟨"KS - Os", 107, "107", "S8", "from Bytom", [
  (98, ⟨"", some "R", none, none, none, none, none, none⟩),
  (4, ⟨"", some "R", some "15:50", some "15:51", none, some "Chorzów Batory", none, none⟩),
  (76, ⟨"", some "R", none, none, none, none, none, none⟩),
  (130, ⟨"", some "R", none, none, none, none, none, none⟩),
  (133, ⟨"", some "R", some "15:54", some "15:54", none, some "Katowice Załęże", none, none⟩),
  (122, ⟨"", some "R", none, none, none, none, none, none⟩),
  (39, ⟨"", some "R", some "15:58", none, none, some "Katowice", none, none⟩)],
  "to Katowice"⟩

/-- train 23 -/
def train_ko1_23 : CodedSection := ⟨"KS - Os", 23, "23", "S1 ", "from Gliwice", [
  (34, ⟨"", some "R", none, some "15:33", none, some "Gliwice", none, none⟩),
  (78, ⟨"", some "R", none, none, none, none, none, none⟩),
  (79, ⟨"", some "R", none, none, none, none, none, none⟩),
  (80, ⟨"", some "R", none, none, none, none, none, none⟩),
  (81, ⟨"", some "R", none, none, none, none, none, none⟩),
  (120, ⟨"", some "R", none, none, none, none, none, none⟩),
  (31, ⟨"", some "R", some "15:41", some "15:41", none, some "Zabrze", none, none⟩),
  (94, ⟨"", some "R", none, none, none, none, none, none⟩),
  (95, ⟨"", some "R", none, none, none, none, none, none⟩),
  (143, ⟨"", some "R", some "15:46", some "15:46", none, some "Ruda Slaska", none, none⟩),
  (128, ⟨"", some "R", none, none, none, none, none, none⟩),
  (41, ⟨"", some "R", some "15:48", some "15:48", none, some "Ruda Chebzie", none, none⟩),
  (85, ⟨"", some "R", none, none, none, none, none, none⟩),
  (145, ⟨"", some "R", some "15:51", some "15:51", none, some "Swietochlowice", none, none⟩),
  (125, ⟨"", some "R", none, none, none, none, none, none⟩),
  (2, ⟨"", some "R", some "15:55", some "15:55", none, some "Chorzów Batory", none, none⟩),
  (76, ⟨"", some "R", none, none, none, none, none, none⟩),
  (130, ⟨"", some "R", none, none, none, none, none, none⟩),
  (133, ⟨"", some "R", some "15:58", some "15:58", none, some "Katowice Załęże", none, none⟩),
  (122, ⟨"", some "R", none, none, none, none, none, none⟩),
  (15, ⟨"", some "R", some "16:01", none, none, some "Katowice", none, none⟩)],
  "to Katowice"⟩

/-- train 6407 -/
def train_ko1_6407 : CodedSection := ⟨"IC - IC", 6407, "6407", "Intercity", "from Wrocław", [
  (117, ⟨"", some "IC", none, none, none, none, none, none⟩),
  (33, ⟨"", some "IC", some "15:38", some "15:44", none, some "Gliwice", none, none⟩),
  (78, ⟨"", some "IC", none, none, none, none, none, none⟩),
  (79, ⟨"", some "IC", none, none, none, none, none, none⟩),
  (80, ⟨"", some "IC", none, none, none, none, none, none⟩),
  (81, ⟨"", some "IC", none, none, none, none, none, none⟩),
  (120, ⟨"", some "IC", none, none, none, none, none, none⟩),
  (31, ⟨"", some "IC", some "15:52", some "15:52", none, some "Zabrze", none, none⟩),
  (94, ⟨"", some "IC", none, none, none, none, none, none⟩),
  (95, ⟨"", some "IC", none, none, none, none, none, none⟩),
  (143, ⟨"", some "IC", none, none, none, none, none, none⟩),
  (128, ⟨"", some "IC", none, none, none, none, none, none⟩),
  (41, ⟨"", some "IC", none, none, none, none, none, none⟩),
  (85, ⟨"", some "IC", none, none, none, none, none, none⟩),
  (145, ⟨"", some "IC", none, none, none, none, none, none⟩),
  (125, ⟨"", some "IC", none, none, none, none, none, none⟩),
  (2, ⟨"", some "IC", none, none, none, none, none, none⟩),
  (76, ⟨"", some "IC", none, none, none, none, none, none⟩),
  (130, ⟨"", some "IC", none, none, none, none, none, none⟩),
  (133, ⟨"", some "IC", none, none, none, none, none, none⟩),
  (122, ⟨"", some "IC", none, none, none, none, none, none⟩),
  (13, ⟨"", some "IC", some "16:08", none, none, some "Katowice", none, none⟩)],
  "to Katowice"⟩

/-- train 25 -/
def train_ko1_25 : CodedSection := ⟨"KS - Os", 25, "25", "S1 ", "from Gliwice", [
  (34, ⟨"", some "R", none, some "15:48", none, some "Gliwice", none, none⟩),
  (78, ⟨"", some "R", none, none, none, none, none, none⟩),
  (79, ⟨"", some "R", none, none, none, none, none, none⟩),
  (80, ⟨"", some "R", none, none, none, none, none, none⟩),
  (81, ⟨"", some "R", none, none, none, none, none, none⟩),
  (120, ⟨"", some "R", none, none, none, none, none, none⟩),
  (31, ⟨"", some "R", some "15:56", some "15:56", none, some "Zabrze", none, none⟩),
  (94, ⟨"", some "R", none, none, none, none, none, none⟩),
  (95, ⟨"", some "R", none, none, none, none, none, none⟩),
  (143, ⟨"", some "R", some "16:01", some "16:01", none, some "Ruda Slaska", none, none⟩),
  (128, ⟨"", some "R", none, none, none, none, none, none⟩),
  (41, ⟨"", some "R", some "16:03", some "16:03", none, some "Ruda Chebzie", none, none⟩),
  (85, ⟨"", some "R", none, none, none, none, none, none⟩),
  (145, ⟨"", some "R", some "16:06", some "16:06", none, some "Swietochlowice", none, none⟩),
  (125, ⟨"", some "R", none, none, none, none, none, none⟩),
  (2, ⟨"", some "R", some "16:10", some "16:10", none, some "Chorzów Batory", none, none⟩),
  (76, ⟨"", some "R", none, none, none, none, none, none⟩),
  (130, ⟨"", some "R", none, none, none, none, none, none⟩),
  (133, ⟨"", some "R", some "16:13", some "16:13", none, some "Katowice Załęże", none, none⟩),
  (122, ⟨"", some "R", none, none, none, none, none, none⟩),
  (15, ⟨"", some "R", some "16:16", none, none, some "Katowice", none, none⟩)],
  "to Katowice"⟩

/-- train 26 -/
def train_ko1_26 : CodedSection := ⟨"KS - Os", 26, "26", "S1", "from Katowice", [
  (14, ⟨"", some "R", none, some "16:00", none, some "Katowice", none, none⟩),
  (83, ⟨"", some "R", none, none, none, none, none, none⟩),
  (101, ⟨"", some "R", some "16:03", some "16:03", none, some "Katowice Załęże", none, none⟩),
  (84, ⟨"", some "R", none, none, none, none, none, none⟩),
  (121, ⟨"", some "R", none, none, none, none, none, none⟩),
  (1, ⟨"", some "R", some "16:06", some "16:06", none, some "Chorzów Batory", none, none⟩),
  (77, ⟨"", some "R", none, none, none, none, none, none⟩),
  (144, ⟨"", some "R", some "16:09", some "16:09", none, some "Świętochłowice", none, none⟩),
  (119, ⟨"", some "R", none, none, none, none, none, none⟩),
  (40, ⟨"", some "R", some "16:13", some "16:13", none, some "Ruda Chebzie", none, none⟩),
  (86, ⟨"", some "R", none, none, none, none, none, none⟩),
  (142, ⟨"", some "R", some "16:15", some "16:15", none, some "Ruda Śląska", none, none⟩),
  (87, ⟨"", some "R", none, none, none, none, none, none⟩),
  (126, ⟨"", some "R", none, none, none, none, none, none⟩),
  (30, ⟨"", some "R", some "16:20", some "16:20", none, some "Zabrze", none, none⟩),
  (90, ⟨"", some "R", none, none, none, none, none, none⟩),
  (91, ⟨"", some "R", none, none, none, none, none, none⟩),
  (92, ⟨"", some "R", none, none, none, none, none, none⟩),
  (93, ⟨"", some "R", none, none, none, none, none, none⟩),
  (127, ⟨"", some "R", none, none, none, none, none, none⟩),
  (35, ⟨"", some "R", some "16:27", none, none, some "Gliwice", none, none⟩)],
  "to Gliwice"⟩

/-- train 4610 -/
def train_ko1_4610 : CodedSection := ⟨"IC - IC", 4610, "4610", "Intercity", "from Katowice", [
  (10, ⟨"", some "IC", none, some "16:07", none, some "Katowice", none, none⟩),
  (83, ⟨"", some "IC", none, none, none, none, none, none⟩),
  (101, ⟨"", some "IC", none, none, none, none, none, none⟩),
  (84, ⟨"", some "IC", none, none, none, none, none, none⟩),
  (121, ⟨"", some "IC", none, none, none, none, none, none⟩),
  (1, ⟨"", some "R", some "16:13", some "16:13", none, some "Chorz�w Batory", none, none⟩),
  (77, ⟨"", some "IC", none, none, none, none, none, none⟩),
  (144, ⟨"", some "IC", none, none, none, none, none, none⟩),
  (119, ⟨"", some "IC", none, none, none, none, none, none⟩),
  (40, ⟨"", some "IC", none, none, none, none, none, none⟩),
  (86, ⟨"", some "IC", none, none, none, none, none, none⟩),
  (142, ⟨"", some "IC", none, none, none, none, none, none⟩),
  (87, ⟨"", some "IC", none, none, none, none, none, none⟩),
  (126, ⟨"", some "IC", none, none, none, none, none, none⟩),
  (30, ⟨"", some "IC", some "16:23", some "16:23", none, some "Zabrze", none, none⟩),
  (90, ⟨"", some "IC", none, none, none, none, none, none⟩),
  (91, ⟨"", some "IC", none, none, none, none, none, none⟩),
  (92, ⟨"", some "IC", none, none, none, none, none, none⟩),
  (93, ⟨"", some "IC", none, none, none, none, none, none⟩),
  (127, ⟨"", some "IC", none, none, none, none, none, none⟩),
  (38, ⟨"", some "IC", some "16:30", some "16:32", none, some "Gliwice", none, none⟩),
  (113, ⟨"", some "IC", none, none, none, none, none, none⟩)],
  "to Wrocław Główny"⟩

/-- train 28 -/
def train_ko1_28 : CodedSection := ⟨"KS - Os", 28, "28", "S1", "from Katowice", [
  (14, ⟨"", some "R", none, some "16:10", none, some "Katowice", none, none⟩),
  (83, ⟨"", some "R", none, none, none, none, none, none⟩),
  (101, ⟨"", some "R", some "16:13", some "16:13", none, some "Katowice Załęże", none, none⟩),
  (84, ⟨"", some "R", none, none, none, none, none, none⟩),
  (121, ⟨"", some "R", none, none, none, none, none, none⟩),
  (1, ⟨"", some "R", some "16:16", some "16:16", none, some "Chorzów Batory", none, none⟩),
  (77, ⟨"", some "R", none, none, none, none, none, none⟩),
  (144, ⟨"", some "R", some "16:19", some "16:19", none, some "Świętochłowice", none, none⟩),
  (119, ⟨"", some "R", none, none, none, none, none, none⟩),
  (40, ⟨"", some "R", some "16:23", some "16:23", none, some "Ruda Chebzie", none, none⟩),
  (86, ⟨"", some "R", none, none, none, none, none, none⟩),
  (142, ⟨"", some "R", some "16:25", some "16:25", none, some "Ruda Śląska", none, none⟩),
  (87, ⟨"", some "R", none, none, none, none, none, none⟩),
  (126, ⟨"", some "R", none, none, none, none, none, none⟩),
  (30, ⟨"", some "R", some "16:30", some "16:30", none, some "Zabrze", none, none⟩),
  (90, ⟨"", some "R", none, none, none, none, none, none⟩),
  (91, ⟨"", some "R", none, none, none, none, none, none⟩),
  (92, ⟨"", some "R", none, none, none, none, none, none⟩),
  (93, ⟨"", some "R", none, none, none, none, none, none⟩),
  (127, ⟨"", some "R", none, none, none, none, none, none⟩),
  (35, ⟨"", some "R", some "16:37", none, none, some "Gliwice", none, none⟩)],
  "to Gliwice"⟩

/-- train 112 -/
def train_ko1_112 : CodedSection := ⟨"KS - Os", 112, "112", "S8", "from Katowice", [
  (16, ⟨"", some "R", none, some "16:15", none, some "Katowice", none, none⟩),
  (83, ⟨"", some "R", none, none, none, none, none, none⟩),
  (101, ⟨"", some "R", some "16:18", some "16:18", none, some "Katowice Załęże", none, none⟩),
  (84, ⟨"", some "R", none, none, none, none, none, none⟩),
  (121, ⟨"", some "R", none, none, none, none, none, none⟩),
  (3, ⟨"", some "R", some "16:22", some "16:23", none, some "Chorzów Batory", none, none⟩),
  (97, ⟨"", some "R", none, none, none, none, none, none⟩)],
  "to Bytom"⟩

/-- train 30 -/
def train_ko1_30 : CodedSection := ⟨"KS - Os", 30, "30", "S1", "from Katowice", [
  (14, ⟨"", some "R", none, some "16:20", none, some "Katowice", none, none⟩),
  (83, ⟨"", some "R", none, none, none, none, none, none⟩),
  (101, ⟨"", some "R", some "16:23", some "16:23", none, some "Katowice Załęże", none, none⟩),
  (84, ⟨"", some "R", none, none, none, none, none, none⟩),
  (121, ⟨"", some "R", none, none, none, none, none, none⟩),
  (1, ⟨"", some "R", some "16:26", some "16:26", none, some "Chorzów Batory", none, none⟩),
  (77, ⟨"", some "R", none, none, none, none, none, none⟩),
  (144, ⟨"", some "R", some "16:29", some "16:29", none, some "Świętochłowice", none, none⟩),
  (119, ⟨"", some "R", none, none, none, none, none, none⟩),
  (40, ⟨"", some "R", some "16:33", some "16:33", none, some "Ruda Chebzie", none, none⟩),
  (86, ⟨"", some "R", none, none, none, none, none, none⟩),
  (142, ⟨"", some "R", some "16:35", some "16:35", none, some "Ruda Śląska", none, none⟩),
  (87, ⟨"", some "R", none, none, none, none, none, none⟩),
  (126, ⟨"", some "R", none, none, none, none, none, none⟩),
  (30, ⟨"", some "R", some "16:40", some "16:40", none, some "Zabrze", none, none⟩),
  (90, ⟨"", some "R", none, none, none, none, none, none⟩),
  (91, ⟨"", some "R", none, none, none, none, none, none⟩),
  (92, ⟨"", some "R", none, none, none, none, none, none⟩),
  (93, ⟨"", some "R", none, none, none, none, none, none⟩),
  (127, ⟨"", some "R", none, none, none, none, none, none⟩),
  (35, ⟨"", some "R", some "16:47", none, none, some "Gliwice", none, none⟩)],
  "to Gliwice"⟩

/-- train 32 -/
def train_ko1_32 : CodedSection := ⟨"KS - Os", 32, "32", "S1", "from Katowice", [
  (14, ⟨"", some "R", none, some "16:30", none, some "Katowice", none, none⟩),
  (83, ⟨"", some "R", none, none, none, none, none, none⟩),
  (101, ⟨"", some "R", some "16:33", some "16:33", none, some "Katowice Załęże", none, none⟩),
  (84, ⟨"", some "R", none, none, none, none, none, none⟩),
  (121, ⟨"", some "R", none, none, none, none, none, none⟩),
  (1, ⟨"", some "R", some "16:36", some "16:36", none, some "Chorzów Batory", none, none⟩),
  (77, ⟨"", some "R", none, none, none, none, none, none⟩),
  (144, ⟨"", some "R", some "16:39", some "16:39", none, some "Świętochłowice", none, none⟩),
  (119, ⟨"", some "R", none, none, none, none, none, none⟩),
  (40, ⟨"", some "R", some "16:43", some "16:43", none, some "Ruda Chebzie", none, none⟩),
  (86, ⟨"", some "R", none, none, none, none, none, none⟩),
  (142, ⟨"", some "R", some "16:45", some "16:45", none, some "Ruda Śląska", none, none⟩),
  (87, ⟨"", some "R", none, none, none, none, none, none⟩),
  (126, ⟨"", some "R", none, none, none, none, none, none⟩),
  (30, ⟨"", some "R", some "16:50", some "16:50", none, some "Zabrze", none, none⟩),
  (90, ⟨"", some "R", none, none, none, none, none, none⟩),
  (91, ⟨"", some "R", none, none, none, none, none, none⟩),
  (92, ⟨"", some "R", none, none, none, none, none, none⟩),
  (93, ⟨"", some "R", none, none, none, none, none, none⟩),
  (127, ⟨"", some "R", none, none, none, none, none, none⟩),
  (35, ⟨"", some "R", some "16:57", none, none, some "Gliwice", none, none⟩)],
  "to Gliwice"⟩

/-- train 4612 -/
def train_ko1_4612 : CodedSection := ⟨"IC - IC", 4612, "4612", "Intercity", "from Katowice", [
  (10, ⟨"", some "IC", none, some "16:37", none, some "Katowice", none, none⟩),
  (83, ⟨"", some "IC", none, none, none, none, none, none⟩),
  (101, ⟨"", some "IC", none, none, none, none, none, none⟩),
  (84, ⟨"", some "IC", none, none, none, none, none, none⟩),
  (121, ⟨"", some "IC", none, none, none, none, none, none⟩),
  (1, ⟨"", some "R", some "16:43", some "16:43", none, some "Chorz�w Batory", none, none⟩),
  (77, ⟨"", some "IC", none, none, none, none, none, none⟩),
  (144, ⟨"", some "IC", none, none, none, none, none, none⟩),
  (119, ⟨"", some "IC", none, none, none, none, none, none⟩),
  (40, ⟨"", some "IC", none, none, none, none, none, none⟩),
  (86, ⟨"", some "IC", none, none, none, none, none, none⟩),
  (142, ⟨"", some "IC", none, none, none, none, none, none⟩),
  (87, ⟨"", some "IC", none, none, none, none, none, none⟩),
  (126, ⟨"", some "IC", none, none, none, none, none, none⟩),
  (30, ⟨"", some "IC", some "16:53", some "16:53", none, some "Zabrze", none, none⟩),
  (90, ⟨"", some "IC", none, none, none, none, none, none⟩),
  (91, ⟨"", some "IC", none, none, none, none, none, none⟩),
  (92, ⟨"", some "IC", none, none, none, none, none, none⟩),
  (93, ⟨"", some "IC", none, none, none, none, none, none⟩),
  (127, ⟨"", some "IC", none, none, none, none, none, none⟩),
  (38, ⟨"", some "IC", some "17:00", some "17:02", none, some "Gliwice", none, none⟩),
  (113, ⟨"", some "IC", none, none, none, none, none, none⟩)],
  "to Wrocław Główny"⟩

/-- train 34 -/
def train_ko1_34 : CodedSection := ⟨"KS - Os", 34, "34", "S1", "from Katowice", [
  (14, ⟨"", some "R", none, some "16:40", none, some "Katowice", none, none⟩),
  (83, ⟨"", some "R", none, none, none, none, none, none⟩),
  (101, ⟨"", some "R", some "16:43", some "16:43", none, some "Katowice Załęże", none, none⟩),
  (84, ⟨"", some "R", none, none, none, none, none, none⟩),
  (121, ⟨"", some "R", none, none, none, none, none, none⟩),
  (1, ⟨"", some "R", some "16:46", some "16:46", none, some "Chorzów Batory", none, none⟩),
  (77, ⟨"", some "R", none, none, none, none, none, none⟩),
  (144, ⟨"", some "R", some "16:49", some "16:49", none, some "Świętochłowice", none, none⟩),
  (119, ⟨"", some "R", none, none, none, none, none, none⟩),
  (40, ⟨"", some "R", some "16:53", some "16:53", none, some "Ruda Chebzie", none, none⟩),
  (86, ⟨"", some "R", none, none, none, none, none, none⟩),
  (142, ⟨"", some "R", some "16:55", some "16:55", none, some "Ruda Śląska", none, none⟩),
  (87, ⟨"", some "R", none, none, none, none, none, none⟩),
  (126, ⟨"", some "R", none, none, none, none, none, none⟩),
  (30, ⟨"", some "R", some "17:00", some "17:00", none, some "Zabrze", none, none⟩),
  (90, ⟨"", some "R", none, none, none, none, none, none⟩),
  (91, ⟨"", some "R", none, none, none, none, none, none⟩),
  (92, ⟨"", some "R", none, none, none, none, none, none⟩),
  (93, ⟨"", some "R", none, none, none, none, none, none⟩),
  (127, ⟨"", some "R", none, none, none, none, none, none⟩),
  (35, ⟨"", some "R", some "17:07", none, none, some "Gliwice", none, none⟩)],
  "to Gliwice"⟩

/-- train 114 -/
def train_ko1_114 : CodedSection := ⟨"KS - Os", 114, "114", "S8", "from Katowice", [
  (16, ⟨"", some "R", none, some "16:45", none, some "Katowice", none, none⟩),
  (83, ⟨"", some "R", none, none, none, none, none, none⟩),
  (101, ⟨"", some "R", some "16:48", some "16:48", none, some "Katowice Załęże", none, none⟩),
  (84, ⟨"", some "R", none, none, none, none, none, none⟩),
  (121, ⟨"", some "R", none, none, none, none, none, none⟩),
  (3, ⟨"", some "R", some "16:52", some "16:53", none, some "Chorzów Batory", none, none⟩),
  (97, ⟨"", some "R", none, none, none, none, none, none⟩)],
  "to Bytom"⟩

/-- train 36 -/
def train_ko1_36 : CodedSection := ⟨"KS - Os", 36, "36", "S1", "from Katowice", [
  (14, ⟨"", some "R", none, some "16:50", none, some "Katowice", none, none⟩),
  (83, ⟨"", some "R", none, none, none, none, none, none⟩),
  (101, ⟨"", some "R", some "16:53", some "16:53", none, some "Katowice Załęże", none, none⟩),
  (84, ⟨"", some "R", none, none, none, none, none, none⟩),
  (121, ⟨"", some "R", none, none, none, none, none, none⟩),
  (1, ⟨"", some "R", some "16:56", some "16:56", none, some "Chorzów Batory", none, none⟩),
  (77, ⟨"", some "R", none, none, none, none, none, none⟩),
  (144, ⟨"", some "R", some "16:59", some "16:59", none, some "Świętochłowice", none, none⟩),
  (119, ⟨"", some "R", none, none, none, none, none, none⟩),
  (40, ⟨"", some "R", some "17:03", some "17:03", none, some "Ruda Chebzie", none, none⟩),
  (86, ⟨"", some "R", none, none, none, none, none, none⟩),
  (142, ⟨"", some "R", some "17:05", some "17:05", none, some "Ruda Śląska", none, none⟩),
  (87, ⟨"", some "R", none, none, none, none, none, none⟩),
  (126, ⟨"", some "R", none, none, none, none, none, none⟩),
  (30, ⟨"", some "R", some "17:10", some "17:10", none, some "Zabrze", none, none⟩),
  (90, ⟨"", some "R", none, none, none, none, none, none⟩),
  (91, ⟨"", some "R", none, none, none, none, none, none⟩),
  (92, ⟨"", some "R", none, none, none, none, none, none⟩),
  (93, ⟨"", some "R", none, none, none, none, none, none⟩),
  (127, ⟨"", some "R", none, none, none, none, none, none⟩),
  (35, ⟨"", some "R", some "17:17", none, none, some "Gliwice", none, none⟩)],
  "to Gliwice"⟩

/-- train 27 -/
def train_ko1_27 : CodedSection := ⟨"KS - Os", 27, "27", "S1 ", "from Gliwice", [
  (34, ⟨"", some "R", none, some "15:53", none, some "Gliwice", none, none⟩),
  (78, ⟨"", some "R", none, none, none, none, none, none⟩),
  (79, ⟨"", some "R", none, none, none, none, none, none⟩),
  (80, ⟨"", some "R", none, none, none, none, none, none⟩),
  (81, ⟨"", some "R", none, none, none, none, none, none⟩),
  (120, ⟨"", some "R", none, none, none, none, none, none⟩),
  (31, ⟨"", some "R", some "16:01", some "16:01", none, some "Zabrze", none, none⟩),
  (94, ⟨"", some "R", none, none, none, none, none, none⟩),
  (95, ⟨"", some "R", none, none, none, none, none, none⟩),
  (143, ⟨"", some "R", some "16:06", some "16:06", none, some "Ruda Slaska", none, none⟩),
  (128, ⟨"", some "R", none, none, none, none, none, none⟩),
  (41, ⟨"", some "R", some "16:08", some "16:08", none, some "Ruda Chebzie", none, none⟩),
  (85, ⟨"", some "R", none, none, none, none, none, none⟩),
  (145, ⟨"", some "R", some "16:11", some "16:11", none, some "Swietochlowice", none, none⟩),
  (125, ⟨"", some "R", none, none, none, none, none, none⟩),
  (2, ⟨"", some "R", some "16:15", some "16:15", none, some "Chorzów Batory", none, none⟩),
  (76, ⟨"", some "R", none, none, none, none, none, none⟩),
  (130, ⟨"", some "R", none, none, none, none, none, none⟩),
  (133, ⟨"", some "R", some "16:18", some "16:18", none, some "Katowice Załęże", none, none⟩),
  (122, ⟨"", some "R", none, none, none, none, none, none⟩),
  (15, ⟨"", some "R", some "16:21", none, none, some "Katowice", none, none⟩)],
  "to Katowice"⟩

/-- train 111 -/
def train_ko1_111 : CodedSection := ⟨"KS - Os", 111, "111", "S8", "from Bytom", [
  (98, ⟨"", some "R", none, none, none, none, none, none⟩),
  (4, ⟨"", some "R", some "16:20", some "16:21", none, some "Chorzów Batory", none, none⟩),
  (76, ⟨"", some "R", none, none, none, none, none, none⟩),
  (130, ⟨"", some "R", none, none, none, none, none, none⟩),
  (133, ⟨"", some "R", some "16:24", some "16:24", none, some "Katowice Załęże", none, none⟩),
  (122, ⟨"", some "R", none, none, none, none, none, none⟩),
  (39, ⟨"", some "R", some "16:28", none, none, some "Katowice", none, none⟩)],
  "to Katowice"⟩

/-- train 31 -/
def train_ko1_31 : CodedSection := ⟨"KS - Os", 31, "31", "S1 ", "from Gliwice", [
  (34, ⟨"", some "R", none, some "16:03", none, some "Gliwice", none, none⟩),
  (78, ⟨"", some "R", none, none, none, none, none, none⟩),
  (79, ⟨"", some "R", none, none, none, none, none, none⟩),
  (80, ⟨"", some "R", none, none, none, none, none, none⟩),
  (81, ⟨"", some "R", none, none, none, none, none, none⟩),
  (120, ⟨"", some "R", none, none, none, none, none, none⟩),
  (31, ⟨"", some "R", some "16:11", some "16:11", none, some "Zabrze", none, none⟩),
  (94, ⟨"", some "R", none, none, none, none, none, none⟩),
  (95, ⟨"", some "R", none, none, none, none, none, none⟩),
  (143, ⟨"", some "R", some "16:16", some "16:16", none, some "Ruda Slaska", none, none⟩),
  (128, ⟨"", some "R", none, none, none, none, none, none⟩),
  (41, ⟨"", some "R", some "16:18", some "16:18", none, some "Ruda Chebzie", none, none⟩),
  (85, ⟨"", some "R", none, none, none, none, none, none⟩),
  (145, ⟨"", some "R", some "16:21", some "16:21", none, some "Swietochlowice", none, none⟩),
  (125, ⟨"", some "R", none, none, none, none, none, none⟩),
  (2, ⟨"", some "R", some "16:25", some "16:25", none, some "Chorzów Batory", none, none⟩),
  (76, ⟨"", some "R", none, none, none, none, none, none⟩),
  (130, ⟨"", some "R", none, none, none, none, none, none⟩),
  (133, ⟨"", some "R", some "16:28", some "16:28", none, some "Katowice Załęże", none, none⟩),
  (122, ⟨"", some "R", none, none, none, none, none, none⟩),
  (15, ⟨"", some "R", some "16:31", none, none, some "Katowice", none, none⟩)],
  "to Katowice"⟩

/-- train 6411 -/
def train_ko1_6411 : CodedSection := ⟨"IC - IC", 6411, "6411", "Intercity", "from Wrocław", [
  (117, ⟨"", some "IC", none, none, none, none, none, none⟩),
  (33, ⟨"", some "IC", some "16:08", some "16:14", none, some "Gliwice", none, none⟩),
  (78, ⟨"", some "IC", none, none, none, none, none, none⟩),
  (79, ⟨"", some "IC", none, none, none, none, none, none⟩),
  (80, ⟨"", some "IC", none, none, none, none, none, none⟩),
  (81, ⟨"", some "IC", none, none, none, none, none, none⟩),
  (120, ⟨"", some "IC", none, none, none, none, none, none⟩),
  (31, ⟨"", some "IC", some "16:22", some "16:22", none, some "Zabrze", none, none⟩),
  (94, ⟨"", some "IC", none, none, none, none, none, none⟩),
  (95, ⟨"", some "IC", none, none, none, none, none, none⟩),
  (143, ⟨"", some "IC", none, none, none, none, none, none⟩),
  (128, ⟨"", some "IC", none, none, none, none, none, none⟩),
  (41, ⟨"", some "IC", none, none, none, none, none, none⟩),
  (85, ⟨"", some "IC", none, none, none, none, none, none⟩),
  (145, ⟨"", some "IC", none, none, none, none, none, none⟩),
  (125, ⟨"", some "IC", none, none, none, none, none, none⟩),
  (2, ⟨"", some "IC", none, none, none, none, none, none⟩),
  (76, ⟨"", some "IC", none, none, none, none, none, none⟩),
  (130, ⟨"", some "IC", none, none, none, none, none, none⟩),
  (133, ⟨"", some "IC", none, none, none, none, none, none⟩),
  (122, ⟨"", some "IC", none, none, none, none, none, none⟩),
  (13, ⟨"", some "IC", some "16:38", none, none, some "Katowice", none, none⟩)],
  "to Katowice"⟩

/-- train 33 -/
def train_ko1_33 : CodedSection := ⟨"KS - Os", 33, "33", "S1 ", "from Gliwice", [
  (34, ⟨"", some "R", none, some "16:18", none, some "Gliwice", none, none⟩),
  (78, ⟨"", some "R", none, none, none, none, none, none⟩),
  (79, ⟨"", some "R", none, none, none, none, none, none⟩),
  (80, ⟨"", some "R", none, none, none, none, none, none⟩),
  (81, ⟨"", some "R", none, none, none, none, none, none⟩),
  (120, ⟨"", some "R", none, none, none, none, none, none⟩),
  (31, ⟨"", some "R", some "16:26", some "16:26", none, some "Zabrze", none, none⟩),
  (94, ⟨"", some "R", none, none, none, none, none, none⟩),
  (95, ⟨"", some "R", none, none, none, none, none, none⟩),
  (143, ⟨"", some "R", some "16:31", some "16:31", none, some "Ruda Slaska", none, none⟩),
  (128, ⟨"", some "R", none, none, none, none, none, none⟩),
  (41, ⟨"", some "R", some "16:33", some "16:33", none, some "Ruda Chebzie", none, none⟩),
  (85, ⟨"", some "R", none, none, none, none, none, none⟩),
  (145, ⟨"", some "R", some "16:36", some "16:36", none, some "Swietochlowice", none, none⟩),
  (125, ⟨"", some "R", none, none, none, none, none, none⟩),
  (2, ⟨"", some "R", some "16:40", some "16:40", none, some "Chorzów Batory", none, none⟩),
  (76, ⟨"", some "R", none, none, none, none, none, none⟩),
  (130, ⟨"", some "R", none, none, none, none, none, none⟩),
  (133, ⟨"", some "R", some "16:43", some "16:43", none, some "Katowice Załęże", none, none⟩),
  (122, ⟨"", some "R", none, none, none, none, none, none⟩),
  (15, ⟨"", some "R", some "16:46", none, none, some "Katowice", none, none⟩)],
  "to Katowice"⟩

/-- train 35 -/
def train_ko1_35 : CodedSection := ⟨"KS - Os", 35, "35", "S1 ", "from Gliwice", [
  (34, ⟨"", some "R", none, some "16:23", none, some "Gliwice", none, none⟩),
  (78, ⟨"", some "R", none, none, none, none, none, none⟩),
  (79, ⟨"", some "R", none, none, none, none, none, none⟩),
  (80, ⟨"", some "R", none, none, none, none, none, none⟩),
  (81, ⟨"", some "R", none, none, none, none, none, none⟩),
  (120, ⟨"", some "R", none, none, none, none, none, none⟩),
  (31, ⟨"", some "R", some "16:31", some "16:31", none, some "Zabrze", none, none⟩),
  (94, ⟨"", some "R", none, none, none, none, none, none⟩),
  (95, ⟨"", some "R", none, none, none, none, none, none⟩),
  (143, ⟨"", some "R", some "16:36", some "16:36", none, some "Ruda Slaska", none, none⟩),
  (128, ⟨"", some "R", none, none, none, none, none, none⟩),
  (41, ⟨"", some "R", some "16:38", some "16:38", none, some "Ruda Chebzie", none, none⟩),
  (85, ⟨"", some "R", none, none, none, none, none, none⟩),
  (145, ⟨"", some "R", some "16:41", some "16:41", none, some "Swietochlowice", none, none⟩),
  (125, ⟨"", some "R", none, none, none, none, none, none⟩),
  (2, ⟨"", some "R", some "16:45", some "16:45", none, some "Chorzów Batory", none, none⟩),
  (76, ⟨"", some "R", none, none, none, none, none, none⟩),
  (130, ⟨"", some "R", none, none, none, none, none, none⟩),
  (133, ⟨"", some "R", some "16:48", some "16:48", none, some "Katowice Załęże", none, none⟩),
  (122, ⟨"", some "R", none, none, none, none, none, none⟩),
  (15, ⟨"", some "R", some "16:51", none, none, some "Katowice", none, none⟩)],
  "to Katowice"⟩

/-- train 113 -/
def train_ko1_113 : CodedSection := ⟨"KS - Os", 113, "113", "S8", "from Bytom", [
  (98, ⟨"", some "R", none, none, none, none, none, none⟩),
  (4, ⟨"", some "R", some "16:50", some "16:51", none, some "Chorzów Batory", none, none⟩),
  (76, ⟨"", some "R", none, none, none, none, none, none⟩),
  (130, ⟨"", some "R", none, none, none, none, none, none⟩),
  (133, ⟨"", some "R", some "16:54", some "16:54", none, some "Katowice Załęże", none, none⟩),
  (122, ⟨"", some "R", none, none, none, none, none, none⟩),
  (39, ⟨"", some "R", some "16:58", none, none, some "Katowice", none, none⟩)],
  "to Katowice"⟩

/-- train 37 -/
def train_ko1_37 : CodedSection := ⟨"KS - Os", 37, "37", "S1 ", "from Gliwice", [
  (34, ⟨"", some "R", none, some "16:33", none, some "Gliwice", none, none⟩),
  (78, ⟨"", some "R", none, none, none, none, none, none⟩),
  (79, ⟨"", some "R", none, none, none, none, none, none⟩),
  (80, ⟨"", some "R", none, none, none, none, none, none⟩),
  (81, ⟨"", some "R", none, none, none, none, none, none⟩),
  (120, ⟨"", some "R", none, none, none, none, none, none⟩),
  (31, ⟨"", some "R", some "16:41", some "16:41", none, some "Zabrze", none, none⟩),
  (94, ⟨"", some "R", none, none, none, none, none, none⟩),
  (95, ⟨"", some "R", none, none, none, none, none, none⟩),
  (143, ⟨"", some "R", some "16:46", some "16:46", none, some "Ruda Slaska", none, none⟩),
  (128, ⟨"", some "R", none, none, none, none, none, none⟩),
  (41, ⟨"", some "R", some "16:48", some "16:48", none, some "Ruda Chebzie", none, none⟩),
  (85, ⟨"", some "R", none, none, none, none, none, none⟩),
  (145, ⟨"", some "R", some "16:51", some "16:51", none, some "Swietochlowice", none, none⟩),
  (125, ⟨"", some "R", none, none, none, none, none, none⟩),
  (2, ⟨"", some "R", some "16:55", some "16:55", none, some "Chorzów Batory", none, none⟩),
  (76, ⟨"", some "R", none, none, none, none, none, none⟩),
  (130, ⟨"", some "R", none, none, none, none, none, none⟩),
  (133, ⟨"", some "R", some "16:58", some "16:58", none, some "Katowice Załęże", none, none⟩),
  (122, ⟨"", some "R", none, none, none, none, none, none⟩),
  (15, ⟨"", some "R", some "17:01", none, none, some "Katowice", none, none⟩)],
  "to Katowice"⟩

/-- train 6413 -/
def train_ko1_6413 : CodedSection := ⟨"IC - IC", 6413, "6413", "Intercity", "from Wrocław", [
  (117, ⟨"", some "IC", none, none, none, none, none, none⟩),
  (33, ⟨"", some "IC", some "16:38", some "16:44", none, some "Gliwice", none, none⟩),
  (78, ⟨"", some "IC", none, none, none, none, none, none⟩),
  (79, ⟨"", some "IC", none, none, none, none, none, none⟩),
  (80, ⟨"", some "IC", none, none, none, none, none, none⟩),
  (81, ⟨"", some "IC", none, none, none, none, none, none⟩),
  (120, ⟨"", some "IC", none, none, none, none, none, none⟩),
  (31, ⟨"", some "IC", some "16:52", some "16:52", none, some "Zabrze", none, none⟩),
  (94, ⟨"", some "IC", none, none, none, none, none, none⟩),
  (95, ⟨"", some "IC", none, none, none, none, none, none⟩),
  (143, ⟨"", some "IC", none, none, none, none, none, none⟩),
  (128, ⟨"", some "IC", none, none, none, none, none, none⟩),
  (41, ⟨"", some "IC", none, none, none, none, none, none⟩),
  (85, ⟨"", some "IC", none, none, none, none, none, none⟩),
  (145, ⟨"", some "IC", none, none, none, none, none, none⟩),
  (125, ⟨"", some "IC", none, none, none, none, none, none⟩),
  (2, ⟨"", some "IC", none, none, none, none, none, none⟩),
  (76, ⟨"", some "IC", none, none, none, none, none, none⟩),
  (130, ⟨"", some "IC", none, none, none, none, none, none⟩),
  (133, ⟨"", some "IC", none, none, none, none, none, none⟩),
  (122, ⟨"", some "IC", none, none, none, none, none, none⟩),
  (13, ⟨"", some "IC", some "17:08", none, none, some "Katowice", none, none⟩)],
  "to Katowice"⟩

/-- train 41 -/
def train_ko1_41 : CodedSection := ⟨"KS - Os", 41, "41", "S1 ", "from Gliwice", [
  (34, ⟨"", some "R", none, some "16:48", none, some "Gliwice", none, none⟩),
  (78, ⟨"", some "R", none, none, none, none, none, none⟩),
  (79, ⟨"", some "R", none, none, none, none, none, none⟩),
  (80, ⟨"", some "R", none, none, none, none, none, none⟩),
  (81, ⟨"", some "R", none, none, none, none, none, none⟩),
  (120, ⟨"", some "R", none, none, none, none, none, none⟩),
  (31, ⟨"", some "R", some "16:56", some "16:56", none, some "Zabrze", none, none⟩),
  (94, ⟨"", some "R", none, none, none, none, none, none⟩),
  (95, ⟨"", some "R", none, none, none, none, none, none⟩),
  (143, ⟨"", some "R", some "17:01", some "17:01", none, some "Ruda Slaska", none, none⟩),
  (128, ⟨"", some "R", none, none, none, none, none, none⟩),
  (41, ⟨"", some "R", some "17:03", some "17:03", none, some "Ruda Chebzie", none, none⟩),
  (85, ⟨"", some "R", none, none, none, none, none, none⟩),
  (145, ⟨"", some "R", some "17:06", some "17:06", none, some "Swietochlowice", none, none⟩),
  (125, ⟨"", some "R", none, none, none, none, none, none⟩),
  (2, ⟨"", some "R", some "17:10", some "17:10", none, some "Chorzów Batory", none, none⟩),
  (76, ⟨"", some "R", none, none, none, none, none, none⟩),
  (130, ⟨"", some "R", none, none, none, none, none, none⟩),
  (133, ⟨"", some "R", some "17:13", some "17:13", none, some "Katowice Załęże", none, none⟩),
  (122, ⟨"", some "R", none, none, none, none, none, none⟩),
  (15, ⟨"", some "R", some "17:16", none, none, some "Katowice", none, none⟩)],
  "to Katowice"⟩

/-- the sections before the first section with number 102 -/
def ko1A : List CodedSection := [
  train_ko1_2, train_ko1_4602, train_ko1_4]

/-- the sections between the two sections with number 102 -/
def ko1B : List CodedSection := [
  train_ko1_6, train_ko1_8, train_ko1_4604, train_ko1_10]

/-- the sections after the second section with number 102 -/
def ko1C : List CodedSection := [
  train_ko1_12, train_ko1_1, train_ko1_101, train_ko1_3, train_ko1_6401, train_ko1_5,
  train_ko1_7, train_ko1_103, train_ko1_9, train_ko1_6403, train_ko1_11, train_ko1_14,
  train_ko1_4606, train_ko1_16, train_ko1_106, train_ko1_18, train_ko1_20, train_ko1_4608,
  train_ko1_22, train_ko1_108, train_ko1_24, train_ko1_13, train_ko1_105, train_ko1_15,
  train_ko1_6405, train_ko1_17, train_ko1_21, train_ko1_107, train_ko1_23, train_ko1_6407,
  train_ko1_25, train_ko1_26, train_ko1_4610, train_ko1_28, train_ko1_112, train_ko1_30,
  train_ko1_32, train_ko1_4612, train_ko1_34, train_ko1_114, train_ko1_36, train_ko1_27,
  train_ko1_111, train_ko1_31, train_ko1_6411, train_ko1_33, train_ko1_35, train_ko1_113,
  train_ko1_37, train_ko1_6413, train_ko1_41]

/-- the sections of the sheet -/
def ko1All : List CodedSection := ko1A ++ train_ko1_102_first :: ko1B ++ train_ko1_102 :: ko1C

/-- the sections without the one that is replaced by a later one -/
def ko1 : List CodedSection := ko1A ++ train_ko1_102 :: ko1B ++ ko1C

/-- the different runs from one station (by position) to the next one, and the blocks between -/
def ko1Runs : List (Nat × Nat × List Nat) := [
  (0, 1, [83, 101, 84, 121]),
  (1, 2, [77, 144, 119, 40, 86, 142, 87, 126, 30, 90, 91, 92, 93, 127]),
  (2, 1, [78, 79, 80, 81, 120, 31, 94, 95, 143, 128, 41, 85, 145, 125]),
  (1, 0, [76, 130, 133, 122])]

end Verif.Real
