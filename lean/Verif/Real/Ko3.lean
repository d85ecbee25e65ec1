import Verif.Real.Net

/-!
# The shipped sheet `/repo/data/KO_GLC/trains_schedules_KO_RCB_ZZ_GLC_v2.csv`

Generated; a row is the number of its block and the cells `speed`, `Arr`, `Dep`, `Approx_enter`,
`Label`, `Shunting`, `Turnaround_time_minutes`.
-/

namespace Verif.Real

/-- train 2 -/
def train_ko3_2 : CodedSection := ⟨"KS - Os", 2, "2", "S1", "from Katowice", [
  (14, ⟨"", some "R", none, some "14:00", none, some "Katowice", none, none⟩),
  (83, ⟨"", some "R", none, none, none, none, none, none⟩),
  (101, ⟨"", some "R", some "14:03", some "14:03", none, some "Katowice Załęże", none, none⟩),
  (84, ⟨"", some "R", none, none, none, none, none, none⟩),
  (121, ⟨"", some "R", none, none, none, none, none, none⟩),
  (1, ⟨"", some "R", some "14:06", some "14:08", none, some "Chorzów Batory", none, none⟩),
  (77, ⟨"", some "R", none, none, none, none, none, none⟩),
  (144, ⟨"", some "R", some "14:11", some "14:11", none, some "Świętochłowice", none, none⟩),
  (119, ⟨"", some "R", none, none, none, none, none, none⟩),
  (40, ⟨"", some "R", some "14:15", some "14:17", none, some "Ruda Chebzie", none, none⟩),
  (86, ⟨"", some "R", none, none, none, none, none, none⟩),
  (142, ⟨"", some "R", some "14:19", some "14:19", none, some "Ruda Śląska", none, none⟩),
  (87, ⟨"", some "R", none, none, none, none, none, none⟩),
  (126, ⟨"", some "R", none, none, none, none, none, none⟩),
  (30, ⟨"", some "R", some "14:24", some "14:26", none, some "Zabrze", none, none⟩),
  (90, ⟨"", some "R", none, none, none, none, none, none⟩),
  (91, ⟨"", some "R", none, none, none, none, none, none⟩),
  (92, ⟨"", some "R", none, none, none, none, none, none⟩),
  (93, ⟨"", some "R", none, none, none, none, none, none⟩),
  (127, ⟨"", some "R", none, none, none, none, none, none⟩),
  (35, ⟨"", some "R", some "14:32", none, none, some "Gliwice", none, none⟩)],
  "to Gliwice"⟩

/-- train 4602 -/
def train_ko3_4602 : CodedSection := ⟨"IC - IC", 4602, "4602", "Intercity", "from Katowice", [
  (10, ⟨"", some "IC", none, some "14:18", none, some "Katowice", none, none⟩),
  (83, ⟨"", some "IC", none, none, none, none, none, none⟩),
  (101, ⟨"", some "IC", none, none, none, none, none, none⟩),
  (84, ⟨"", some "IC", none, none, none, none, none, none⟩),
  (121, ⟨"", some "IC", none, none, none, none, none, none⟩),
  (1, ⟨"", some "R", some "14:24", some "14:25", none, some "Chorz�w Batory", none, none⟩),
  (77, ⟨"", some "IC", none, none, none, none, none, none⟩),
  (144, ⟨"", some "IC", none, none, none, none, none, none⟩),
  (119, ⟨"", some "IC", none, none, none, none, none, none⟩),
  (40, ⟨"", some "IC", none, none, none, none, none, none⟩),
  (86, ⟨"", some "IC", none, none, none, none, none, none⟩),
  (142, ⟨"", some "IC", none, none, none, none, none, none⟩),
  (87, ⟨"", some "IC", none, none, none, none, none, none⟩),
  (126, ⟨"", some "IC", none, none, none, none, none, none⟩),
  (30, ⟨"", some "IC", some "14:35", some "14:38", none, some "Zabrze", none, none⟩),
  (90, ⟨"", some "IC", none, none, none, none, none, none⟩),
  (91, ⟨"", some "IC", none, none, none, none, none, none⟩),
  (92, ⟨"", some "IC", none, none, none, none, none, none⟩),
  (93, ⟨"", some "IC", none, none, none, none, none, none⟩),
  (127, ⟨"", some "IC", none, none, none, none, none, none⟩),
  (38, ⟨"", some "IC", some "14:45", some "14:47", none, some "Gliwice", none, none⟩),
  (113, ⟨"", some "IC", none, none, none, none, none, none⟩)],
  "to Wrocław Główny"⟩

/-- train 4 -/
def train_ko3_4 : CodedSection := ⟨"KS - Os", 4, "4", "S1", "from Katowice", [
  (14, ⟨"", some "R", none, some "14:38", none, some "Katowice", none, none⟩),
  (83, ⟨"", some "R", none, none, none, none, none, none⟩),
  (101, ⟨"", some "R", some "14:41", some "14:41", none, some "Katowice Załęże", none, none⟩),
  (84, ⟨"", some "R", none, none, none, none, none, none⟩),
  (121, ⟨"", some "R", none, none, none, none, none, none⟩),
  (1, ⟨"", some "R", some "14:44", some "14:46", none, some "Chorzów Batory", none, none⟩),
  (77, ⟨"", some "R", none, none, none, none, none, none⟩),
  (144, ⟨"", some "R", some "14:49", some "14:49", none, some "Świętochłowice", none, none⟩),
  (119, ⟨"", some "R", none, none, none, none, none, none⟩),
  (40, ⟨"", some "R", some "14:53", some "14:55", none, some "Ruda Chebzie", none, none⟩),
  (86, ⟨"", some "R", none, none, none, none, none, none⟩),
  (142, ⟨"", some "R", some "14:58", some "14:58", none, some "Ruda Śląska", none, none⟩),
  (87, ⟨"", some "R", none, none, none, none, none, none⟩),
  (126, ⟨"", some "R", none, none, none, none, none, none⟩),
  (30, ⟨"", some "R", some "15:02", some "15:04", none, some "Zabrze", none, none⟩),
  (90, ⟨"", some "R", none, none, none, none, none, none⟩),
  (91, ⟨"", some "R", none, none, none, none, none, none⟩),
  (92, ⟨"", some "R", none, none, none, none, none, none⟩),
  (93, ⟨"", some "R", none, none, none, none, none, none⟩),
  (127, ⟨"", some "R", none, none, none, none, none, none⟩),
  (35, ⟨"", some "R", some "15:11", none, none, some "Gliwice", none, none⟩)],
  "to Gliwice"⟩

/-- train 102 -/
def train_ko3_102 : CodedSection := ⟨"KS - Os", 102, "102", "S8", "from Katowice", [
  (16, ⟨"", some "R", none, some "14:43", none, some "Katowice", none, none⟩),
  (83, ⟨"", some "R", none, none, none, none, none, none⟩),
  (101, ⟨"", some "R", some "14:46", some "14:46", none, some "Katowice Załęże", none, none⟩),
  (84, ⟨"", some "R", none, none, none, none, none, none⟩),
  (121, ⟨"", some "R", none, none, none, none, none, none⟩),
  (3, ⟨"", some "R", some "14:50", some "14:52", none, some "Chorzów Batory", none, none⟩),
  (97, ⟨"", some "R", none, none, none, none, none, none⟩)],
  "to Bytom"⟩

/-- train 6 -/
def train_ko3_6 : CodedSection := ⟨"KS - Os", 6, "6", "S1", "from Katowice", [
  (14, ⟨"", some "R", none, some "15:17", none, some "Katowice", none, none⟩),
  (83, ⟨"", some "R", none, none, none, none, none, none⟩),
  (101, ⟨"", some "R", some "15:19", some "15:19", none, some "Katowice Załęże", none, none⟩),
  (84, ⟨"", some "R", none, none, none, none, none, none⟩),
  (121, ⟨"", some "R", none, none, none, none, none, none⟩),
  (1, ⟨"", some "R", some "15:22", some "15:23", none, some "Chorzów Batory", none, none⟩),
  (77, ⟨"", some "R", none, none, none, none, none, none⟩),
  (144, ⟨"", some "R", some "15:25", some "15:25", none, some "Świętochłowice", none, none⟩),
  (119, ⟨"", some "R", none, none, none, none, none, none⟩),
  (40, ⟨"", some "R", some "15:29", some "15:31", none, some "Ruda Chebzie", none, none⟩),
  (86, ⟨"", some "R", none, none, none, none, none, none⟩),
  (142, ⟨"", some "R", some "14:33", some "15:33", none, some "Ruda Śląska", none, none⟩),
  (87, ⟨"", some "R", none, none, none, none, none, none⟩),
  (126, ⟨"", some "R", none, none, none, none, none, none⟩),
  (30, ⟨"", some "R", some "15:38", some "15:40", none, some "Zabrze", none, none⟩),
  (90, ⟨"", some "R", none, none, none, none, none, none⟩),
  (91, ⟨"", some "R", none, none, none, none, none, none⟩),
  (92, ⟨"", some "R", none, none, none, none, none, none⟩),
  (93, ⟨"", some "R", none, none, none, none, none, none⟩),
  (127, ⟨"", some "R", none, none, none, none, none, none⟩),
  (35, ⟨"", some "R", some "15:47", none, none, some "Gliwice", none, none⟩)],
  "to Gliwice"⟩

/-- train 4604 -/
def train_ko3_4604 : CodedSection := ⟨"IC - IC", 4604, "4604", "Intercity", "from Katowice", [
  (10, ⟨"", some "IC", none, some "15:28", none, some "Katowice", none, none⟩),
  (83, ⟨"", some "IC", none, none, none, none, none, none⟩),
  (101, ⟨"", some "IC", none, none, none, none, none, none⟩),
  (84, ⟨"", some "IC", none, none, none, none, none, none⟩),
  (121, ⟨"", some "IC", none, none, none, none, none, none⟩),
  (1, ⟨"", some "IC", none, none, none, none, none, none⟩),
  (77, ⟨"", some "IC", none, none, none, none, none, none⟩),
  (144, ⟨"", some "IC", none, none, none, none, none, none⟩),
  (119, ⟨"", some "IC", none, none, none, none, none, none⟩),
  (40, ⟨"", some "IC", none, none, none, none, none, none⟩),
  (86, ⟨"", some "IC", none, none, none, none, none, none⟩),
  (142, ⟨"", some "IC", none, none, none, none, none, none⟩),
  (87, ⟨"", some "IC", none, none, none, none, none, none⟩),
  (126, ⟨"", some "IC", none, none, none, none, none, none⟩),
  (30, ⟨"", some "IC", some "15:41", some "15:44", none, some "Zabrze", none, none⟩),
  (90, ⟨"", some "IC", none, none, none, none, none, none⟩),
  (91, ⟨"", some "IC", none, none, none, none, none, none⟩),
  (92, ⟨"", some "IC", none, none, none, none, none, none⟩),
  (93, ⟨"", some "IC", none, none, none, none, none, none⟩),
  (127, ⟨"", some "IC", none, none, none, none, none, none⟩),
  (38, ⟨"", some "IC", some "15:52", some "15:54", none, some "Gliwice", none, none⟩),
  (113, ⟨"", some "IC", none, none, none, none, none, none⟩)],
  "to Wrocław Główny"⟩

/-- train 8 -/
def train_ko3_8 : CodedSection := ⟨"KS - Os", 8, "8", "S1", "from Katowice", [
  (14, ⟨"", some "R", none, some "15:54", none, some "Katowice", none, none⟩),
  (83, ⟨"", some "R", none, none, none, none, none, none⟩),
  (101, ⟨"", some "R", some "15:57", some "15:57", none, some "Katowice Załęże", none, none⟩),
  (84, ⟨"", some "R", none, none, none, none, none, none⟩),
  (121, ⟨"", some "R", none, none, none, none, none, none⟩),
  (1, ⟨"", some "R", some "16:00", some "16:00", none, some "Chorzów Batory", none, none⟩),
  (77, ⟨"", some "R", none, none, none, none, none, none⟩),
  (144, ⟨"", some "R", some "16:03", some "16:03", none, some "Świętochłowice", none, none⟩),
  (119, ⟨"", some "R", none, none, none, none, none, none⟩),
  (40, ⟨"", some "R", some "16:06", some "16:06", none, some "Ruda Chebzie", none, none⟩),
  (86, ⟨"", some "R", none, none, none, none, none, none⟩),
  (142, ⟨"", some "R", some "16:09", some "16:09", none, some "Ruda Śląska", none, none⟩),
  (87, ⟨"", some "R", none, none, none, none, none, none⟩),
  (126, ⟨"", some "R", none, none, none, none, none, none⟩),
  (30, ⟨"", some "R", some "16:13", some "16:13", none, some "Zabrze", none, none⟩),
  (90, ⟨"", some "R", none, none, none, none, none, none⟩),
  (91, ⟨"", some "R", none, none, none, none, none, none⟩),
  (92, ⟨"", some "R", none, none, none, none, none, none⟩),
  (93, ⟨"", some "R", none, none, none, none, none, none⟩),
  (127, ⟨"", some "R", none, none, none, none, none, none⟩),
  (35, ⟨"", some "R", some "16:21", none, none, some "Gliwice", none, none⟩)],
  "to Gliwice"⟩

/-- train 10 -/
def train_ko3_10 : CodedSection := ⟨"KS - Os", 10, "10", "S1", "from Katowice", [
  (14, ⟨"", some "R", none, some "16:07", none, some "Katowice", none, none⟩),
  (83, ⟨"", some "R", none, none, none, none, none, none⟩),
  (101, ⟨"", some "R", some "16:09", some "16:09", none, some "Katowice Załęże", none, none⟩),
  (84, ⟨"", some "R", none, none, none, none, none, none⟩),
  (121, ⟨"", some "R", none, none, none, none, none, none⟩),
  (1, ⟨"", some "R", some "16:12", some "16:13", none, some "Chorzów Batory", none, none⟩),
  (77, ⟨"", some "R", none, none, none, none, none, none⟩),
  (144, ⟨"", some "R", some "16:15", some "16:15", none, some "Świętochłowice", none, none⟩),
  (119, ⟨"", some "R", none, none, none, none, none, none⟩),
  (40, ⟨"", some "R", some "16:20", some "16:21", none, some "Ruda Chebzie", none, none⟩),
  (86, ⟨"", some "R", none, none, none, none, none, none⟩),
  (142, ⟨"", some "R", some "16:23", some "16:23", none, some "Ruda Śląska", none, none⟩),
  (87, ⟨"", some "R", none, none, none, none, none, none⟩),
  (126, ⟨"", some "R", none, none, none, none, none, none⟩),
  (30, ⟨"", some "R", some "16:28", some "16:32", none, some "Zabrze", none, none⟩),
  (90, ⟨"", some "R", none, none, none, none, none, none⟩),
  (91, ⟨"", some "R", none, none, none, none, none, none⟩),
  (92, ⟨"", some "R", none, none, none, none, none, none⟩),
  (93, ⟨"", some "R", none, none, none, none, none, none⟩),
  (127, ⟨"", some "R", none, none, none, none, none, none⟩),
  (35, ⟨"", some "R", some "16:39", none, none, some "Gliwice", none, none⟩)],
  "to Gliwice"⟩

/-- train 4606 -/
def train_ko3_4606 : CodedSection := ⟨"IC - IC", 4606, "4606", "Intercity", "from Katowice", [
  (10, ⟨"", some "IC", none, some "16:22", none, some "Katowice", none, none⟩),
  (83, ⟨"", some "IC", none, none, none, none, none, none⟩),
  (101, ⟨"", some "IC", none, none, none, none, none, none⟩),
  (84, ⟨"", some "IC", none, none, none, none, none, none⟩),
  (121, ⟨"", some "IC", none, none, none, none, none, none⟩),
  (1, ⟨"", some "R", some "16:26", some "16:27", none, some "Chorz�w Batory", none, none⟩),
  (77, ⟨"", some "IC", none, none, none, none, none, none⟩),
  (144, ⟨"", some "IC", none, none, none, none, none, none⟩),
  (119, ⟨"", some "IC", none, none, none, none, none, none⟩),
  (40, ⟨"", some "IC", none, none, none, none, none, none⟩),
  (86, ⟨"", some "IC", none, none, none, none, none, none⟩),
  (142, ⟨"", some "IC", none, none, none, none, none, none⟩),
  (87, ⟨"", some "IC", none, none, none, none, none, none⟩),
  (126, ⟨"", some "IC", none, none, none, none, none, none⟩),
  (30, ⟨"", some "IC", some "16:37", some "16:39", none, some "Zabrze", none, none⟩),
  (90, ⟨"", some "IC", none, none, none, none, none, none⟩),
  (91, ⟨"", some "IC", none, none, none, none, none, none⟩),
  (92, ⟨"", some "IC", none, none, none, none, none, none⟩),
  (93, ⟨"", some "IC", none, none, none, none, none, none⟩),
  (127, ⟨"", some "IC", none, none, none, none, none, none⟩),
  (38, ⟨"", some "IC", some "16:45", some "16:47", none, some "Gliwice", none, none⟩),
  (113, ⟨"", some "IC", none, none, none, none, none, none⟩)],
  "to Wrocław Główny"⟩

/-- train 12 -/
def train_ko3_12 : CodedSection := ⟨"KS - Os", 12, "12", "S1", "from Katowice", [
  (14, ⟨"", some "R", none, some "16:24", none, some "Katowice", none, none⟩),
  (83, ⟨"", some "R", none, none, none, none, none, none⟩),
  (101, ⟨"", some "R", some "16:27", some "16:27", none, some "Katowice Załęże", none, none⟩),
  (84, ⟨"", some "R", none, none, none, none, none, none⟩),
  (121, ⟨"", some "R", none, none, none, none, none, none⟩),
  (1, ⟨"", some "R", some "16:30", some "16:32", none, some "Chorzów Batory", none, none⟩),
  (77, ⟨"", some "R", none, none, none, none, none, none⟩),
  (144, ⟨"", some "R", some "16:35", some "16:35", none, some "Świętochłowice", none, none⟩),
  (119, ⟨"", some "R", none, none, none, none, none, none⟩),
  (40, ⟨"", some "R", some "16:39", some "16:46", none, some "Ruda Chebzie", none, none⟩),
  (86, ⟨"", some "R", none, none, none, none, none, none⟩),
  (142, ⟨"", some "R", some "16:49", some "16:49", none, some "Ruda Śląska", none, none⟩),
  (87, ⟨"", some "R", none, none, none, none, none, none⟩),
  (126, ⟨"", some "R", none, none, none, none, none, none⟩),
  (30, ⟨"", some "R", some "16:52", some "16:54", none, some "Zabrze", none, none⟩),
  (90, ⟨"", some "R", none, none, none, none, none, none⟩),
  (91, ⟨"", some "R", none, none, none, none, none, none⟩),
  (92, ⟨"", some "R", none, none, none, none, none, none⟩),
  (93, ⟨"", some "R", none, none, none, none, none, none⟩),
  (127, ⟨"", some "R", none, none, none, none, none, none⟩),
  (35, ⟨"", some "R", some "17:01", none, none, some "Gliwice", none, none⟩)],
  "to Gliwice"⟩

/-- train 14 -/
def train_ko3_14 : CodedSection := ⟨"KS - Os", 14, "14", "S1", "from Katowice", [
  (14, ⟨"", some "R", none, some "16:44", none, some "Katowice", none, none⟩),
  (83, ⟨"", some "R", none, none, none, none, none, none⟩),
  (101, ⟨"", some "R", some "16:47", some "16:47", none, some "Katowice Załęże", none, none⟩),
  (84, ⟨"", some "R", none, none, none, none, none, none⟩),
  (121, ⟨"", some "R", none, none, none, none, none, none⟩),
  (1, ⟨"", some "R", some "16:50", some "17:00", none, some "Chorzów Batory", none, none⟩),
  (77, ⟨"", some "R", none, none, none, none, none, none⟩),
  (144, ⟨"", some "R", some "17:03", some "17:03", none, some "Świętochłowice", none, none⟩),
  (119, ⟨"", some "R", none, none, none, none, none, none⟩),
  (40, ⟨"", some "R", some "17:05", some "17:05", none, some "Ruda Chebzie", none, none⟩),
  (86, ⟨"", some "R", none, none, none, none, none, none⟩),
  (142, ⟨"", some "R", some "17:08", some "17:08", none, some "Ruda Śląska", none, none⟩),
  (87, ⟨"", some "R", none, none, none, none, none, none⟩),
  (126, ⟨"", some "R", none, none, none, none, none, none⟩),
  (30, ⟨"", some "R", some "17:11", some "17:12", none, some "Zabrze", none, none⟩),
  (90, ⟨"", some "R", none, none, none, none, none, none⟩),
  (91, ⟨"", some "R", none, none, none, none, none, none⟩),
  (92, ⟨"", some "R", none, none, none, none, none, none⟩),
  (93, ⟨"", some "R", none, none, none, none, none, none⟩),
  (127, ⟨"", some "R", none, none, none, none, none, none⟩),
  (35, ⟨"", some "R", some "17:19", none, none, some "Gliwice", none, none⟩)],
  "to Gliwice"⟩

/-- train 1 -/
def train_ko3_1 : CodedSection := ⟨"KS - Os", 1, "1", "S1 ", "from Gliwice", [
  (36, ⟨"", some "R", none, some "13:58", none, some "Gliwice", none, none⟩),
  (127, ⟨"", some "R", none, none, none, none, none, none⟩),
  (93, ⟨"", some "R", none, none, none, none, none, none⟩),
  (92, ⟨"", some "R", none, none, none, none, none, none⟩),
  (91, ⟨"", some "R", none, none, none, none, none, none⟩),
  (90, ⟨"", some "R", none, none, none, none, none, none⟩),
  (31, ⟨"", some "R", some "14:06", some "14:08", none, some "Zabrze", none, none⟩),
  (126, ⟨"", some "R", none, none, none, none, none, none⟩),
  (87, ⟨"", some "R", none, none, none, none, none, none⟩),
  (142, ⟨"", some "R", some "14:13", some "14:13", none, some "Ruda Slaska", none, none⟩),
  (86, ⟨"", some "R", none, none, none, none, none, none⟩),
  (41, ⟨"", some "R", some "14:15", some "14:17", none, some "Ruda Chebzie", none, none⟩),
  (85, ⟨"", some "R", none, none, none, none, none, none⟩),
  (145, ⟨"", some "R", some "14:20", some "14:20", none, some "Swietochlowice", none, none⟩),
  (125, ⟨"", some "R", none, none, none, none, none, none⟩),
  (2, ⟨"", some "R", some "14:24", some "14:26", none, some "Chorzów Batory", none, none⟩),
  (121, ⟨"", some "R", none, none, none, none, none, none⟩),
  (84, ⟨"", some "R", none, none, none, none, none, none⟩),
  (101, ⟨"", some "R", some "14:29", some "14:29", none, some "Katowice Załęże", none, none⟩),
  (83, ⟨"", some "R", none, none, none, none, none, none⟩),
  (15, ⟨"", some "R", some "14:32", none, none, some "Katowice", none, none⟩)],
  "to Katowice"⟩

/-- train 101 -/
def train_ko3_101 : CodedSection := ⟨"KS - Os", 101, "101", "S8", "from Bytom", [
  (98, ⟨"", some "R", none, none, none, none, none, none⟩),
  (4, ⟨"", some "R", some "14:26", some "14:30", none, some "Chorzów Batory", none, none⟩),
  (121, ⟨"", some "R", none, none, none, none, none, none⟩),
  (84, ⟨"", some "R", none, none, none, none, none, none⟩),
  (101, ⟨"", some "R", some "14:33", some "14:33", none, some "Katowice Załęże", none, none⟩),
  (83, ⟨"", some "R", none, none, none, none, none, none⟩),
  (39, ⟨"", some "R", some "14:37", none, none, some "Katowice", none, none⟩)],
  "to Katowice"⟩

/-- train 6401 -/
def train_ko3_6401 : CodedSection := ⟨"IC - IC", 6401, "6401", "Intercity", "from Wrocław", [
  (117, ⟨"", some "IC", none, none, none, none, none, none⟩),
  (36, ⟨"", some "IC", some "14:29", some "14:32", none, some "Gliwice", none, none⟩),
  (127, ⟨"", some "IC", none, none, none, none, none, none⟩),
  (93, ⟨"", some "IC", none, none, none, none, none, none⟩),
  (92, ⟨"", some "IC", none, none, none, none, none, none⟩),
  (91, ⟨"", some "IC", none, none, none, none, none, none⟩),
  (90, ⟨"", some "IC", none, none, none, none, none, none⟩),
  (31, ⟨"", some "IC", some "14:38", some "14:39", none, some "Zabrze", none, none⟩),
  (126, ⟨"", some "IC", none, none, none, none, none, none⟩),
  (87, ⟨"", some "IC", none, none, none, none, none, none⟩),
  (142, ⟨"", some "IC", none, none, none, none, none, none⟩),
  (86, ⟨"", some "IC", none, none, none, none, none, none⟩),
  (41, ⟨"", some "IC", none, none, none, none, none, none⟩),
  (85, ⟨"", some "IC", none, none, none, none, none, none⟩),
  (145, ⟨"", some "IC", none, none, none, none, none, none⟩),
  (125, ⟨"", some "IC", none, none, none, none, none, none⟩),
  (2, ⟨"", some "R", some "14:48", some "14:50", none, some "Chorzów Batory", none, none⟩),
  (121, ⟨"", some "IC", none, none, none, none, none, none⟩),
  (84, ⟨"", some "IC", none, none, none, none, none, none⟩),
  (101, ⟨"", some "IC", none, none, none, none, none, none⟩),
  (83, ⟨"", some "IC", none, none, none, none, none, none⟩),
  (13, ⟨"", some "IC", some "14:55", none, none, some "Katowice", none, none⟩)],
  "to Katowice"⟩

/-- train 3 -/
def train_ko3_3 : CodedSection := ⟨"KS - Os", 3, "3", "S1 ", "from Gliwice", [
  (36, ⟨"", some "R", none, some "14:54", none, some "Gliwice", none, none⟩),
  (127, ⟨"", some "R", none, none, none, none, none, none⟩),
  (93, ⟨"", some "R", none, none, none, none, none, none⟩),
  (92, ⟨"", some "R", none, none, none, none, none, none⟩),
  (91, ⟨"", some "R", none, none, none, none, none, none⟩),
  (90, ⟨"", some "R", none, none, none, none, none, none⟩),
  (31, ⟨"", some "R", some "15:02", some "15:04", none, some "Zabrze", none, none⟩),
  (126, ⟨"", some "R", none, none, none, none, none, none⟩),
  (87, ⟨"", some "R", none, none, none, none, none, none⟩),
  (142, ⟨"", some "R", some "15:09", some "15:09", none, some "Ruda Slaska", none, none⟩),
  (86, ⟨"", some "R", none, none, none, none, none, none⟩),
  (41, ⟨"", some "R", some "15:11", some "15:13", none, some "Ruda Chebzie", none, none⟩),
  (85, ⟨"", some "R", none, none, none, none, none, none⟩),
  (145, ⟨"", some "R", some "15:16", some "15:16", none, some "Swietochlowice", none, none⟩),
  (125, ⟨"", some "R", none, none, none, none, none, none⟩),
  (2, ⟨"", some "R", some "15:20", some "15:22", none, some "Chorzów Batory", none, none⟩),
  (121, ⟨"", some "R", none, none, none, none, none, none⟩),
  (84, ⟨"", some "R", none, none, none, none, none, none⟩),
  (101, ⟨"", some "R", some "15:25", some "15:25", none, some "Katowice Załęże", none, none⟩),
  (83, ⟨"", some "R", none, none, none, none, none, none⟩),
  (15, ⟨"", some "R", some "15:28", none, none, some "Katowice", none, none⟩)],
  "to Katowice"⟩

/-- train 103 -/
def train_ko3_103_first : CodedSection := ⟨"KS - Os", 103, "103", "S8", "from Bytom", [
  (98, ⟨"", some "R", none, none, none, none, none, none⟩),
  (4, ⟨"", some "R", some "15:48", some "15:50", none, some "Chorzów Batory", none, none⟩),
  (121, ⟨"", some "R", none, none, none, none, none, none⟩),
  (84, ⟨"", some "R", none, none, none, none, none, none⟩),
  (101, ⟨"", some "R", some "15:53", some "15:53", none, some "Katowice Załęże", none, none⟩),
  (83, ⟨"", some "R", none, none, none, none, none, none⟩),
  (39, ⟨"", some "R", some "15:57", none, none, some "Katowice", none, none⟩)],
  "to Katowice"⟩

/-- train 5 -/
def train_ko3_5 : CodedSection := ⟨"KS - Os", 5, "5", "S1 ", "from Gliwice", [
  (36, ⟨"", some "R", none, some "15:34", none, some "Gliwice", none, none⟩),
  (127, ⟨"", some "R", none, none, none, none, none, none⟩),
  (93, ⟨"", some "R", none, none, none, none, none, none⟩),
  (92, ⟨"", some "R", none, none, none, none, none, none⟩),
  (91, ⟨"", some "R", none, none, none, none, none, none⟩),
  (90, ⟨"", some "R", none, none, none, none, none, none⟩),
  (31, ⟨"", some "R", some "15:41", some "15:42", none, some "Zabrze", none, none⟩),
  (126, ⟨"", some "R", none, none, none, none, none, none⟩),
  (87, ⟨"", some "R", none, none, none, none, none, none⟩),
  (142, ⟨"", some "R", some "15:47", some "15:47", none, some "Ruda Slaska", none, none⟩),
  (86, ⟨"", some "R", none, none, none, none, none, none⟩),
  (41, ⟨"", some "R", some "15:49", some "15:50", none, some "Ruda Chebzie", none, none⟩),
  (85, ⟨"", some "R", none, none, none, none, none, none⟩),
  (145, ⟨"", some "R", some "15:53", some "15:53", none, some "Swietochlowice", none, none⟩),
  (125, ⟨"", some "R", none, none, none, none, none, none⟩),
  (2, ⟨"", some "R", some "15:57", some "15:59", none, some "Chorzów Batory", none, none⟩),
  (121, ⟨"", some "R", none, none, none, none, none, none⟩),
  (84, ⟨"", some "R", none, none, none, none, none, none⟩),
  (101, ⟨"", some "R", some "16:02", some "16:02", none, some "Katowice Załęże", none, none⟩),
  (83, ⟨"", some "R", none, none, none, none, none, none⟩),
  (15, ⟨"", some "R", some "16:05", none, none, some "Katowice", none, none⟩)],
  "to Katowice"⟩

/-- train 6403 -/
def train_ko3_6403 : CodedSection := ⟨"IC - IC", 6403, "6403", "Intercity", "from Wrocław", [
  (117, ⟨"", some "IC", none, none, none, none, none, none⟩),
  (36, ⟨"", some "IC", some "15:49", some "15:54", none, some "Gliwice", none, none⟩),
  (127, ⟨"", some "IC", none, none, none, none, none, none⟩),
  (93, ⟨"", some "IC", none, none, none, none, none, none⟩),
  (92, ⟨"", some "IC", none, none, none, none, none, none⟩),
  (91, ⟨"", some "IC", none, none, none, none, none, none⟩),
  (90, ⟨"", some "IC", none, none, none, none, none, none⟩),
  (31, ⟨"", some "IC", some "16:01", some "16:01", none, some "Zabrze", none, none⟩),
  (126, ⟨"", some "IC", none, none, none, none, none, none⟩),
  (87, ⟨"", some "IC", none, none, none, none, none, none⟩),
  (142, ⟨"", some "IC", none, none, none, none, none, none⟩),
  (86, ⟨"", some "IC", none, none, none, none, none, none⟩),
  (41, ⟨"", some "IC", none, none, none, none, none, none⟩),
  (85, ⟨"", some "IC", none, none, none, none, none, none⟩),
  (145, ⟨"", some "IC", none, none, none, none, none, none⟩),
  (125, ⟨"", some "IC", none, none, none, none, none, none⟩),
  (2, ⟨"", some "R", some "16:10", some "16:12", none, some "Chorzów Batory", none, none⟩),
  (121, ⟨"", some "IC", none, none, none, none, none, none⟩),
  (84, ⟨"", some "IC", none, none, none, none, none, none⟩),
  (101, ⟨"", some "IC", none, none, none, none, none, none⟩),
  (83, ⟨"", some "IC", none, none, none, none, none, none⟩),
  (13, ⟨"", some "IC", some "16:16", none, none, some "Katowice", none, none⟩)],
  "to Katowice"⟩

/-- train 7 -/
def train_ko3_7 : CodedSection := ⟨"KS - Os", 7, "7", "S1 ", "from Gliwice", [
  (36, ⟨"", some "R", none, some "16:07", none, some "Gliwice", none, none⟩),
  (127, ⟨"", some "R", none, none, none, none, none, none⟩),
  (93, ⟨"", some "R", none, none, none, none, none, none⟩),
  (92, ⟨"", some "R", none, none, none, none, none, none⟩),
  (91, ⟨"", some "R", none, none, none, none, none, none⟩),
  (90, ⟨"", some "R", none, none, none, none, none, none⟩),
  (31, ⟨"", some "R", some "16:12", some "16:14", none, some "Zabrze", none, none⟩),
  (126, ⟨"", some "R", none, none, none, none, none, none⟩),
  (87, ⟨"", some "R", none, none, none, none, none, none⟩),
  (142, ⟨"", some "R", some "16:19", some "16:19", none, some "Ruda Slaska", none, none⟩),
  (86, ⟨"", some "R", none, none, none, none, none, none⟩),
  (41, ⟨"", some "R", some "16:21", some "16:23", none, some "Ruda Chebzie", none, none⟩),
  (85, ⟨"", some "R", none, none, none, none, none, none⟩),
  (145, ⟨"", some "R", some "16:25", some "16:25", none, some "Swietochlowice", none, none⟩),
  (125, ⟨"", some "R", none, none, none, none, none, none⟩),
  (2, ⟨"", some "R", some "16:29", some "16:31", none, some "Chorzów Batory", none, none⟩),
  (121, ⟨"", some "R", none, none, none, none, none, none⟩),
  (84, ⟨"", some "R", none, none, none, none, none, none⟩),
  (101, ⟨"", some "R", some "16:35", some "16:35", none, some "Katowice Załęże", none, none⟩),
  (83, ⟨"", some "R", none, none, none, none, none, none⟩),
  (15, ⟨"", some "R", some "16:40", none, none, some "Katowice", none, none⟩)],
  "to Katowice"⟩

/-- train 9 -/
def train_ko3_9 : CodedSection := ⟨"KS - Os", 9, "9", "S1 ", "from Gliwice", [
  (36, ⟨"", some "R", none, some "16:26", none, some "Gliwice", none, none⟩),
  (127, ⟨"", some "R", none, none, none, none, none, none⟩),
  (93, ⟨"", some "R", none, none, none, none, none, none⟩),
  (92, ⟨"", some "R", none, none, none, none, none, none⟩),
  (91, ⟨"", some "R", none, none, none, none, none, none⟩),
  (90, ⟨"", some "R", none, none, none, none, none, none⟩),
  (31, ⟨"", some "R", some "16:34", some "16:39", none, some "Zabrze", none, none⟩),
  (126, ⟨"", some "R", none, none, none, none, none, none⟩),
  (87, ⟨"", some "R", none, none, none, none, none, none⟩),
  (142, ⟨"", some "R", some "16:44", some "16:44", none, some "Ruda Slaska", none, none⟩),
  (86, ⟨"", some "R", none, none, none, none, none, none⟩),
  (41, ⟨"", some "R", some "16:47", some "16:47", none, some "Ruda Chebzie", none, none⟩),
  (85, ⟨"", some "R", none, none, none, none, none, none⟩),
  (145, ⟨"", some "R", some "16:50", some "16:50", none, some "Swietochlowice", none, none⟩),
  (125, ⟨"", some "R", none, none, none, none, none, none⟩),
  (2, ⟨"", some "R", some "16:54", some "16:54", none, some "Chorzów Batory", none, none⟩),
  (121, ⟨"", some "R", none, none, none, none, none, none⟩),
  (84, ⟨"", some "R", none, none, none, none, none, none⟩),
  (101, ⟨"", some "R", some "16:58", some "16:58", none, some "Katowice Załęże", none, none⟩),
  (83, ⟨"", some "R", none, none, none, none, none, none⟩),
  (15, ⟨"", some "R", some "17:00", none, none, some "Katowice", none, none⟩)],
  "to Katowice"⟩

/-- train 103 -/
def train_ko3_103 : CodedSection := ⟨"KS - Os", 103, "103", "S8", "from Bytom", [
  (98, ⟨"", some "R", none, none, none, none, none, none⟩),
  (4, ⟨"", some "R", some "16:58", some "17:00", none, some "Chorzów Batory", none, none⟩),
  (121, ⟨"", some "R", none, none, none, none, none, none⟩),
  (84, ⟨"", some "R", none, none, none, none, none, none⟩),
  (101, ⟨"", some "R", some "17:03", some "17:03", none, some "Katowice Załęże", none, none⟩),
  (83, ⟨"", some "R", none, none, none, none, none, none⟩),
  (39, ⟨"", some "R", some "17:07", none, none, some "Katowice", none, none⟩)],
  "to Katowice"⟩

/-- train 11 -/
def train_ko3_11 : CodedSection := ⟨"KS - Os", 11, "11", "S1 ", "from Gliwice", [
  (36, ⟨"", some "R", none, some "16:47", none, some "Gliwice", none, none⟩),
  (127, ⟨"", some "R", none, none, none, none, none, none⟩),
  (93, ⟨"", some "R", none, none, none, none, none, none⟩),
  (92, ⟨"", some "R", none, none, none, none, none, none⟩),
  (91, ⟨"", some "R", none, none, none, none, none, none⟩),
  (90, ⟨"", some "R", none, none, none, none, none, none⟩),
  (31, ⟨"", some "R", some "16:55", some "16:55", none, some "Zabrze", none, none⟩),
  (126, ⟨"", some "R", none, none, none, none, none, none⟩),
  (87, ⟨"", some "R", none, none, none, none, none, none⟩),
  (142, ⟨"", some "R", some "17:02", some "17:02", none, some "Ruda Slaska", none, none⟩),
  (86, ⟨"", some "R", none, none, none, none, none, none⟩),
  (41, ⟨"", some "R", some "17:05", some "17:07", none, some "Ruda Chebzie", none, none⟩),
  (85, ⟨"", some "R", none, none, none, none, none, none⟩),
  (145, ⟨"", some "R", some "17:08", some "17:10", none, some "Swietochlowice", none, none⟩),
  (125, ⟨"", some "R", none, none, none, none, none, none⟩),
  (2, ⟨"", some "R", some "17:14", some "17:14", none, some "Chorzów Batory", none, none⟩),
  (121, ⟨"", some "R", none, none, none, none, none, none⟩),
  (84, ⟨"", some "R", none, none, none, none, none, none⟩),
  (101, ⟨"", some "R", some "17:18", some "17:18", none, some "Katowice Załęże", none, none⟩),
  (83, ⟨"", some "R", none, none, none, none, none, none⟩),
  (15, ⟨"", some "R", some "17:21", none, none, some "Katowice", none, none⟩)],
  "to Katowice"⟩

/-- the sections before the first section with number 103 -/
def ko3A : List CodedSection := [
  train_ko3_2, train_ko3_4602, train_ko3_4, train_ko3_102, train_ko3_6, train_ko3_4604,
  train_ko3_8, train_ko3_10, train_ko3_4606, train_ko3_12, train_ko3_14, train_ko3_1,
  train_ko3_101, train_ko3_6401, train_ko3_3]

/-- the sections between the two sections with number 103 -/
def ko3B : List CodedSection := [
  train_ko3_5, train_ko3_6403, train_ko3_7, train_ko3_9]

/-- the sections after the second section with number 103 -/
def ko3C : List CodedSection := [
  train_ko3_11]

/-- the sections of the sheet -/
def ko3All : List CodedSection := ko3A ++ train_ko3_103_first :: ko3B ++ train_ko3_103 :: ko3C

/-- the sections without the one that is replaced by a later one -/
def ko3 : List CodedSection := ko3A ++ train_ko3_103 :: ko3B ++ ko3C

/-- the different runs from one station (by position) to the next one, and the blocks between -/
def ko3Runs : List (Nat × Nat × List Nat) := [
  (0, 1, [83, 101, 84, 121]),
  (1, 2, [77, 144, 119]),
  (2, 3, [86, 142, 87, 126]),
  (3, 4, [90, 91, 92, 93, 127]),
  (4, 3, [127, 93, 92, 91, 90]),
  (3, 2, [126, 87, 142, 86]),
  (2, 1, [85, 145, 125]),
  (1, 0, [121, 84, 101, 83])]

end Verif.Real
