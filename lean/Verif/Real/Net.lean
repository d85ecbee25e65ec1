import Verif.Proofs.Coded

/-!
# The shipped network

Generated from `/repo/data/network_paths.ods` and the tables of stations
`/repo/data/important_stations.npz`, `/repo/data/important_stations_Gt.npz`,
`/repo/data/KO_GLC/important_stations_KO_GLC.npz` and
`/repo/data/KO_GLC/important_stations_KO_GLC_R.npz`. Blocks are given by their position in `names`.
-/

namespace Verif.Real

/-- names of the blocks -/
def names : List String := [
  "\"KO\",\"ST\", 3, \"(2)\"",
  "\"CB\", \"ST\", 1, \"(1)\"",
  "\"CB\", \"ST\", 2, \"(1)\"",
  "\"CB\", \"ST\", 3, \"(2)\"",
  "\"CB\", \"ST\", 4, \"(2)\"",
  "\"CM\", \"ST\", 1, \"(1)\"",
  "\"CM\", \"ST\", 2, \"(1)\"",
  "\"KL\", \"ST\", 1, \"(2)\"",
  "\"KL\", \"ST\", 2, \"(2)\"",
  "\"KL\", \"ST\", 3, \"(1)\"",
  "\"KO\", \"ST\", 1, \"(2)\"",
  "\"KO\", \"ST\", 2, \"(3)\"",
  "\"KO\", \"ST\", 3, \"(2)\"",
  "\"KO\", \"ST\", 4, \"(3)\"",
  "\"KO\", \"ST\", 7, \"(1)\"",
  "\"KO\", \"ST\", 8, \"(4)\"",
  "\"KO\", \"ST\", 9, \"(1)\"",
  "\"KZ\", \"ST\", 1, \"(1)\"",
  "\"KZ\", \"ST\", 2, \"(1)\"",
  "\"KZ\", \"ST\", 3, \"(2)\"",
  "\"KZ\", \"ST\", 4, \"(2)\"",
  "\"MJ\", \"ST\", 1, \"(1)\"",
  "\"MJ\", \"ST\", 3, \"(1)\"",
  "\"Mi\", \"ST\", 1, \"(2)\"",
  "\"Mi\", \"ST\", 2, \"(1)\"",
  "\"Ty\", \"ST\", 1, \"(2)\"",
  "\"Ty\", \"ST\", 2, \"(2)\"",
  "\"Ty\", \"ST\", 7, \"(3)\"",
  "\"Ty\", \"ST\", 8, \"(1)\"",
  "\"Ty\", \"ST\", 9, \"(3)\"",
  "\"ZZ\", \"ST\", 1, \"(1)\"",
  "\"ZZ\", \"ST\", 2, \"(1)\"",
  "\"GLC\", \"ST\", 3, \"(1)\"",
  "\"GLC\", \"ST\", 4, \"(1)\"",
  "\"GLC\", \"ST\", 5, \"(2)\"",
  "\"GLC\", \"ST\", 6, \"(2)\"",
  "\"GLC\", \"ST\", 7, \"(3)\"",
  "\"GLC\", \"ST\", 8, \"(3)\"",
  "\"GLC\", \"ST\", 9, \"(4)\"",
  "\"KO\", \"ST\", 10, \"(4)\"",
  "\"RCB\", \"ST\", 1, \"(1)\"",
  "\"RCB\", \"ST\", 2, \"(1)\"",
  "\"CB\", \"ST\", 5, \"(N/A)\"",
  "\"GLC\", \"ST\", 11, \"(4)\"",
  "\"KO\", \"ST\", 120, \"(5)\"",
  "\"KO\", \"ST\", 5, \"(N/A)\"",
  "\"KO\", \"ST\", 6, \"(N/A)\"",
  "\"CB\", \"ST\", 10, \"(N/A)\"",
  "\"KO\", \"ST\", 113, \"(N/A)\"",
  "\"KO\", \"ST\", 114, \"(N/A)\"",
  "\"KO\", \"ST\", 115, \"(N/A)\"",
  "\"KO\", \"ST\", 116, \"(N/A)\"",
  "\"KO\", \"ST\", 117, \"(N/A)\"",
  "\"KO\", \"ST\", 118, \"(N/A)\"",
  "\"Mc\", \"PODG\", 1, \"(N/A)\"",
  "\"Mc\", \"PODG\", 2, \"(N/A)\"",
  "\"Mc\", \"PODG\", 3, \"(N/A)\"",
  "\"Ty\", \"ST\", 101, \"(N/A)\"",
  "\"Ty\", \"ST\", 102, \"(N/A)\"",
  "\"Ty\", \"ST\", 108, \"(N/A)\"",
  "\"GLC\", \"B-M\", 200, \"(N/A)\"",
  "\"KO\", \"ST-M\", 1113, \"(N/A)\"",
  "\"KO\", \"ST-M\", 1114, \"(N/A)\"",
  "\"KO\", \"ST-M\", 1118, \"(N/A)\"",
  "\"Bry\", \"PODG\", 1, \"1\", \"(1)\"",
  "\"Bry\", \"PODG\", 2, \"1\", \"(1)\"",
  "\"KO(IC)\", \"B-M\", 500, \"(N/A)\"",
  "\"SG-KZ\", \"SBL\", 1, \"3\", \"(3)\"",
  "\"Rac(KS)\", \"B-M\", 200, \"(N/A)\"",
  "\"KL-Mc-2\", \"SBL\", 1, \"2\", \"(6)\"",
  "\"KL-Mc-3\", \"SBL\", 1, \"3\", \"(6)\"",
  "\"KL-Mc-5\", \"SBL\", 1, \"5\", \"(6)\"",
  "\"Mc-KL-1\", \"SBL\", 2, \"1\", \"(5)\"",
  "\"Mc-KL-3\", \"SBL\", 2, \"3\", \"(5)\"",
  "\"Mc-KL-4\", \"SBL\", 2, \"4\", \"(5)\"",
  "\"Ty-TMo \", \"SBL\", 1, \"1\", \"(2)\"",
  "\"CB-KTC-1\", \"SBL\", 2, \"1\", \"(2)\"",
  "\"CB-RCB-1\", \"SBL\", 1, \"1\", \"(3)\"",
  "\"GLC-ZZ-1\", \"SBL\", 2, \"1\", \"(5)\"",
  "\"GLC-ZZ-2\", \"SBL\", 2, \"2\", \"(5)\"",
  "\"GLC-ZZ-3\", \"SBL\", 2, \"3\", \"(5)\"",
  "\"GLC-ZZ-4\", \"SBL\", 2, \"4\", \"(5)\"",
  "\"KL-Bry-1\", \"SBL\", 2, \"1\", \"(2)\"",
  "\"KO-KTC-1\", \"SBL\", 1, \"1\", \"(2)\"",
  "\"KTC-CB-1\", \"SBL\", 1, \"1\", \"(2)\"",
  "\"RCB-CB-1\", \"SBL\", 2, \"1\", \"(3)\"",
  "\"RCB-ZZ-1\", \"SBL\", 1, \"1\", \"(4)\"",
  "\"RCB-ZZ-3\", \"SBL\", 1, \"3\", \"(4)\"",
  "\"Szb-KZ-3\", \"SBL\", 3, \"2\", \"(2)\"",
  "\"Ty-Kob-1\", \"SBL\", 1, \"1\", \"(6)\"",
  "\"ZZ-GLC-1\", \"SBL\", 1, \"1\", \"(5)\"",
  "\"ZZ-GLC-2\", \"SBL\", 1, \"2\", \"(5)\"",
  "\"ZZ-GLC-3\", \"SBL\", 1, \"3\", \"(5)\"",
  "\"ZZ-GLC-4\", \"SBL\", 1, \"4\", \"(5)\"",
  "\"ZZ-RCB-1\", \"SBL\", 2, \"1\", \"(4)\"",
  "\"ZZ-RCB-2\", \"SBL\", 2, \"2\", \"(4)\"",
  "\"Bry-KL-1\", \"SBL+POGP\", 1, \"1\", \"(2)\"",
  "\"CB-CM\", \"SBL+Sem(ST)\", 1, \"1\", \"(1)\"",
  "\"CM-CB\", \"SBL+Sem(ST)\", 2, \"1\", \"(1)\"",
  "\"CM-CS\", \"Sem(odstęp)\", 1, \"1\", \"(1)\"",
  "\"CS-CM\", \"Sem(odstęp)\", 2, \"1\", \"(1)\"",
  "\"KO-KTC-2\", \"SBL+POGP\", 1, \"2\", \"(2)\"",
  "\"KO-KZ\", \"SBL+Sem(ST)\", 2, \"1\", \"(1)\"",
  "\"KO-KZ\", \"SBL+Sem(ST)\", 4, \"1\", \"(1)\"",
  "\"KZ-KO\", \"SBL+Sem(ST)\", 1, \"1\", \"(1)\"",
  "\"KZ-KO\", \"SBL+Sem(ST)\", 3, \"1\", \"(1)\"",
  "\"KZ-SG\", \"SBL+Sem(ST)\", 2, \"1\", \"(3)\"",
  "\"MJ-Mi\", \"Sem(odstep)\", 1, \"1\", \"(1)\"",
  "\"Ty-Mc\", \"Sem(odstep)\", 2, \"1\", \"(1)\"",
  "\"Ty-ŁŚ\", \"Sem(odstep)\", 1, \"1\", \"(1)\"",
  "\"Mi_ŁGB\", \"Sem(odstęp)\", 1, \"1\", \"(1)\"",
  "\"TMo-Ty\", \"Sem(odstęp)\", 2, \"1\", \"(1)\"",
  "\"Bry-KO\", \"PODG+Sem(ST)\", 2, \"1\", \"(1)\"",
  "\"GLC-Szo\", \"Sem(odstep)\", 1, \"1\", \"(1)\"",
  "\"KL-MJ-2\", \"Sem(odstep)\", 1, \"2\", \"(2)\"",
  "\"KO-Bry\", \"ST+Sem(PODG)\", 3, \"1\", \"(1)\"",
  "\"Mc-KL-5\", \"SBL+Sem(ST)\", 2, \"5\", \"(5)\"",
  "\"Szo-GLC\", \"SBL(odstep)\", 2, \"1\", \"(1)\"",
  "\"Bry-KL-2\", \"SBL+Sem(ST)\", 1, \"2\", \"(2)\"",
  "\"CB-RCB-3\", \"SBL+Sem(ST)\", 1, \"3\", \"(3)\"",
  "\"GLC-ZZ-5\", \"SBL+Sem(ST)\", 2, \"5\", \"(5)\"",
  "\"KTC-CB-2\", \"SBL+Sem(ST)\", 1, \"2\", \"(2)\"",
  "\"KTC-KO-2\", \"SBL+Sem(ST)\", 2, \"2\", \"(2)\"",
  "\"KZ-Szb-1\", \"SBL+Sem(ST)\", 4, \"1\", \"(3)\"",
  "\"Kob-Ty-6\", \"SBL+Sem(ST)\", 2, \"6\", \"(6)\"",
  "\"RCB-CB-3\", \"SBL+Sem(ST)\", 2, \"3\", \"(3)\"",
  "\"RCB-ZZ-4\", \"SBL+Sem(ST)\", 1, \"4\", \"(4)\"",
  "\"ZZ-GLC-5\", \"SBL+Sem(ST)\", 1, \"5\", \"(5)\"",
  "\"ZZ-RCB-4\", \"SBL+Sem(ST)\", 2, \"4\", \"(4)\"",
  "\"KL-Mc-6\", \"SBL+Sem(PODG)\", 1, \"6\", \"(6)\"",
  "\"CB-KTC-2\", \"SBL+Sem(PODG)\", 2, \"2\", \"(2)\"",
  "\"KL-Bry-2\", \"SBL+Sem(PODG)\", 2, \"2\", \"(2)\"",
  "\"Gt-CB\", \"Sem(PODG)+Sem(ST)\", 1, \"1\", \"(1)\"",
  "\"KTC-KO-1\", \"SBL+PO(Załęże)\", 2, \"1\", \"(2)\"",
  "\"KL-Mc-4\", \"SBL+PO(Podlesie)\", 1, \"4\", \"(6)\"",
  "\"Mc-KL-2\", \"SBL+PO(Podlesie)\", 2, \"2\", \"(5)\"",
  "\"Mc-Ty\", \"Sem(odstep)+Sem(ST)\", 1, \"1\", \"(1)\"",
  "\"KL-Mc-1\", \"SBL+PO(Piotrowice)\", 1, \"1\", \"(6)\"",
  "\"KO-Bugla-Bry-1\", \"Sem(ST)+SBL\", 1, \"1\", \"(2)\"",
  "\"KTC-Gt\", \"Sem(PODG)+Sem(PODG)\", 1, \"1\", \"(1)\"",
  "\"Ty-Mc\", \"Sem(odstep)+Sem(PODG)\", 3, \"1\", \"(1)\"",
  "\"KO-Bugla-Bry-2\", \"SBL+Sem(PODG)\", 1, \"2\", \"(2)\"",
  "\"RCB-ZZ-2\", \"SBL+PO(Ruda Śląska)\", 1, \"2\", \"(4)\"",
  "\"ZZ-RCB-3\", \"SBL+PO(Ruda Śląska)\", 2, \"3\", \"(4)\"",
  "\"CB-RCB-2\", \"SBL+PO(Świętochłowice)\", 1, \"2\", \"(3)\"",
  "\"RCB-CB-2\", \"SBL+PO(Świętochłowice)\", 2, \"2\", \"(3)\"",
  "\"KL-MJ-1\", \"Sem(odstep)+PO(Piotrowice)\", 1, \"1\", \"(2)\""]

/-- the characters of the names -/
def chars : List (List Char) := [
  ['"', 'K', 'O', '"', ',', '"', 'S', 'T', '"', ',', ' ', '3', ',', ' ', '"', '(', '2', ')', '"'],
  ['"', 'C', 'B', '"', ',', ' ', '"', 'S', 'T', '"', ',', ' ', '1', ',', ' ', '"', '(', '1', ')', '"'],
  ['"', 'C', 'B', '"', ',', ' ', '"', 'S', 'T', '"', ',', ' ', '2', ',', ' ', '"', '(', '1', ')', '"'],
  ['"', 'C', 'B', '"', ',', ' ', '"', 'S', 'T', '"', ',', ' ', '3', ',', ' ', '"', '(', '2', ')', '"'],
  ['"', 'C', 'B', '"', ',', ' ', '"', 'S', 'T', '"', ',', ' ', '4', ',', ' ', '"', '(', '2', ')', '"'],
  ['"', 'C', 'M', '"', ',', ' ', '"', 'S', 'T', '"', ',', ' ', '1', ',', ' ', '"', '(', '1', ')', '"'],
  ['"', 'C', 'M', '"', ',', ' ', '"', 'S', 'T', '"', ',', ' ', '2', ',', ' ', '"', '(', '1', ')', '"'],
  ['"', 'K', 'L', '"', ',', ' ', '"', 'S', 'T', '"', ',', ' ', '1', ',', ' ', '"', '(', '2', ')', '"'],
  ['"', 'K', 'L', '"', ',', ' ', '"', 'S', 'T', '"', ',', ' ', '2', ',', ' ', '"', '(', '2', ')', '"'],
  ['"', 'K', 'L', '"', ',', ' ', '"', 'S', 'T', '"', ',', ' ', '3', ',', ' ', '"', '(', '1', ')', '"'],
  ['"', 'K', 'O', '"', ',', ' ', '"', 'S', 'T', '"', ',', ' ', '1', ',', ' ', '"', '(', '2', ')', '"'],
  ['"', 'K', 'O', '"', ',', ' ', '"', 'S', 'T', '"', ',', ' ', '2', ',', ' ', '"', '(', '3', ')', '"'],
  ['"', 'K', 'O', '"', ',', ' ', '"', 'S', 'T', '"', ',', ' ', '3', ',', ' ', '"', '(', '2', ')', '"'],
  ['"', 'K', 'O', '"', ',', ' ', '"', 'S', 'T', '"', ',', ' ', '4', ',', ' ', '"', '(', '3', ')', '"'],
  ['"', 'K', 'O', '"', ',', ' ', '"', 'S', 'T', '"', ',', ' ', '7', ',', ' ', '"', '(', '1', ')', '"'],
  ['"', 'K', 'O', '"', ',', ' ', '"', 'S', 'T', '"', ',', ' ', '8', ',', ' ', '"', '(', '4', ')', '"'],
  ['"', 'K', 'O', '"', ',', ' ', '"', 'S', 'T', '"', ',', ' ', '9', ',', ' ', '"', '(', '1', ')', '"'],
  ['"', 'K', 'Z', '"', ',', ' ', '"', 'S', 'T', '"', ',', ' ', '1', ',', ' ', '"', '(', '1', ')', '"'],
  ['"', 'K', 'Z', '"', ',', ' ', '"', 'S', 'T', '"', ',', ' ', '2', ',', ' ', '"', '(', '1', ')', '"'],
  ['"', 'K', 'Z', '"', ',', ' ', '"', 'S', 'T', '"', ',', ' ', '3', ',', ' ', '"', '(', '2', ')', '"'],
  ['"', 'K', 'Z', '"', ',', ' ', '"', 'S', 'T', '"', ',', ' ', '4', ',', ' ', '"', '(', '2', ')', '"'],
  ['"', 'M', 'J', '"', ',', ' ', '"', 'S', 'T', '"', ',', ' ', '1', ',', ' ', '"', '(', '1', ')', '"'],
  ['"', 'M', 'J', '"', ',', ' ', '"', 'S', 'T', '"', ',', ' ', '3', ',', ' ', '"', '(', '1', ')', '"'],
  ['"', 'M', 'i', '"', ',', ' ', '"', 'S', 'T', '"', ',', ' ', '1', ',', ' ', '"', '(', '2', ')', '"'],
  ['"', 'M', 'i', '"', ',', ' ', '"', 'S', 'T', '"', ',', ' ', '2', ',', ' ', '"', '(', '1', ')', '"'],
  ['"', 'T', 'y', '"', ',', ' ', '"', 'S', 'T', '"', ',', ' ', '1', ',', ' ', '"', '(', '2', ')', '"'],
  ['"', 'T', 'y', '"', ',', ' ', '"', 'S', 'T', '"', ',', ' ', '2', ',', ' ', '"', '(', '2', ')', '"'],
  ['"', 'T', 'y', '"', ',', ' ', '"', 'S', 'T', '"', ',', ' ', '7', ',', ' ', '"', '(', '3', ')', '"'],
  ['"', 'T', 'y', '"', ',', ' ', '"', 'S', 'T', '"', ',', ' ', '8', ',', ' ', '"', '(', '1', ')', '"'],
  ['"', 'T', 'y', '"', ',', ' ', '"', 'S', 'T', '"', ',', ' ', '9', ',', ' ', '"', '(', '3', ')', '"'],
  ['"', 'Z', 'Z', '"', ',', ' ', '"', 'S', 'T', '"', ',', ' ', '1', ',', ' ', '"', '(', '1', ')', '"'],
  ['"', 'Z', 'Z', '"', ',', ' ', '"', 'S', 'T', '"', ',', ' ', '2', ',', ' ', '"', '(', '1', ')', '"'],
  ['"', 'G', 'L', 'C', '"', ',', ' ', '"', 'S', 'T', '"', ',', ' ', '3', ',', ' ', '"', '(', '1', ')', '"'],
  ['"', 'G', 'L', 'C', '"', ',', ' ', '"', 'S', 'T', '"', ',', ' ', '4', ',', ' ', '"', '(', '1', ')', '"'],
  ['"', 'G', 'L', 'C', '"', ',', ' ', '"', 'S', 'T', '"', ',', ' ', '5', ',', ' ', '"', '(', '2', ')', '"'],
  ['"', 'G', 'L', 'C', '"', ',', ' ', '"', 'S', 'T', '"', ',', ' ', '6', ',', ' ', '"', '(', '2', ')', '"'],
  ['"', 'G', 'L', 'C', '"', ',', ' ', '"', 'S', 'T', '"', ',', ' ', '7', ',', ' ', '"', '(', '3', ')', '"'],
  ['"', 'G', 'L', 'C', '"', ',', ' ', '"', 'S', 'T', '"', ',', ' ', '8', ',', ' ', '"', '(', '3', ')', '"'],
  ['"', 'G', 'L', 'C', '"', ',', ' ', '"', 'S', 'T', '"', ',', ' ', '9', ',', ' ', '"', '(', '4', ')', '"'],
  ['"', 'K', 'O', '"', ',', ' ', '"', 'S', 'T', '"', ',', ' ', '1', '0', ',', ' ', '"', '(', '4', ')', '"'],
  ['"', 'R', 'C', 'B', '"', ',', ' ', '"', 'S', 'T', '"', ',', ' ', '1', ',', ' ', '"', '(', '1', ')', '"'],
  ['"', 'R', 'C', 'B', '"', ',', ' ', '"', 'S', 'T', '"', ',', ' ', '2', ',', ' ', '"', '(', '1', ')', '"'],
  ['"', 'C', 'B', '"', ',', ' ', '"', 'S', 'T', '"', ',', ' ', '5', ',', ' ', '"', '(', 'N', '/', 'A', ')', '"'],
  ['"', 'G', 'L', 'C', '"', ',', ' ', '"', 'S', 'T', '"', ',', ' ', '1', '1', ',', ' ', '"', '(', '4', ')', '"'],
  ['"', 'K', 'O', '"', ',', ' ', '"', 'S', 'T', '"', ',', ' ', '1', '2', '0', ',', ' ', '"', '(', '5', ')', '"'],
  ['"', 'K', 'O', '"', ',', ' ', '"', 'S', 'T', '"', ',', ' ', '5', ',', ' ', '"', '(', 'N', '/', 'A', ')', '"'],
  ['"', 'K', 'O', '"', ',', ' ', '"', 'S', 'T', '"', ',', ' ', '6', ',', ' ', '"', '(', 'N', '/', 'A', ')', '"'],
  ['"', 'C', 'B', '"', ',', ' ', '"', 'S', 'T', '"', ',', ' ', '1', '0', ',', ' ', '"', '(', 'N', '/', 'A', ')', '"'],
  ['"', 'K', 'O', '"', ',', ' ', '"', 'S', 'T', '"', ',', ' ', '1', '1', '3', ',', ' ', '"', '(', 'N', '/', 'A', ')', '"'],
  ['"', 'K', 'O', '"', ',', ' ', '"', 'S', 'T', '"', ',', ' ', '1', '1', '4', ',', ' ', '"', '(', 'N', '/', 'A', ')', '"'],
  ['"', 'K', 'O', '"', ',', ' ', '"', 'S', 'T', '"', ',', ' ', '1', '1', '5', ',', ' ', '"', '(', 'N', '/', 'A', ')', '"'],
  ['"', 'K', 'O', '"', ',', ' ', '"', 'S', 'T', '"', ',', ' ', '1', '1', '6', ',', ' ', '"', '(', 'N', '/', 'A', ')', '"'],
  ['"', 'K', 'O', '"', ',', ' ', '"', 'S', 'T', '"', ',', ' ', '1', '1', '7', ',', ' ', '"', '(', 'N', '/', 'A', ')', '"'],
  ['"', 'K', 'O', '"', ',', ' ', '"', 'S', 'T', '"', ',', ' ', '1', '1', '8', ',', ' ', '"', '(', 'N', '/', 'A', ')', '"'],
  ['"', 'M', 'c', '"', ',', ' ', '"', 'P', 'O', 'D', 'G', '"', ',', ' ', '1', ',', ' ', '"', '(', 'N', '/', 'A', ')', '"'],
  ['"', 'M', 'c', '"', ',', ' ', '"', 'P', 'O', 'D', 'G', '"', ',', ' ', '2', ',', ' ', '"', '(', 'N', '/', 'A', ')', '"'],
  ['"', 'M', 'c', '"', ',', ' ', '"', 'P', 'O', 'D', 'G', '"', ',', ' ', '3', ',', ' ', '"', '(', 'N', '/', 'A', ')', '"'],
  ['"', 'T', 'y', '"', ',', ' ', '"', 'S', 'T', '"', ',', ' ', '1', '0', '1', ',', ' ', '"', '(', 'N', '/', 'A', ')', '"'],
  ['"', 'T', 'y', '"', ',', ' ', '"', 'S', 'T', '"', ',', ' ', '1', '0', '2', ',', ' ', '"', '(', 'N', '/', 'A', ')', '"'],
  ['"', 'T', 'y', '"', ',', ' ', '"', 'S', 'T', '"', ',', ' ', '1', '0', '8', ',', ' ', '"', '(', 'N', '/', 'A', ')', '"'],
  ['"', 'G', 'L', 'C', '"', ',', ' ', '"', 'B', '-', 'M', '"', ',', ' ', '2', '0', '0', ',', ' ', '"', '(', 'N', '/', 'A', ')', '"'],
  ['"', 'K', 'O', '"', ',', ' ', '"', 'S', 'T', '-', 'M', '"', ',', ' ', '1', '1', '1', '3', ',', ' ', '"', '(', 'N', '/', 'A', ')', '"'],
  ['"', 'K', 'O', '"', ',', ' ', '"', 'S', 'T', '-', 'M', '"', ',', ' ', '1', '1', '1', '4', ',', ' ', '"', '(', 'N', '/', 'A', ')', '"'],
  ['"', 'K', 'O', '"', ',', ' ', '"', 'S', 'T', '-', 'M', '"', ',', ' ', '1', '1', '1', '8', ',', ' ', '"', '(', 'N', '/', 'A', ')', '"'],
  ['"', 'B', 'r', 'y', '"', ',', ' ', '"', 'P', 'O', 'D', 'G', '"', ',', ' ', '1', ',', ' ', '"', '1', '"', ',', ' ', '"', '(', '1', ')', '"'],
  ['"', 'B', 'r', 'y', '"', ',', ' ', '"', 'P', 'O', 'D', 'G', '"', ',', ' ', '2', ',', ' ', '"', '1', '"', ',', ' ', '"', '(', '1', ')', '"'],
  ['"', 'K', 'O', '(', 'I', 'C', ')', '"', ',', ' ', '"', 'B', '-', 'M', '"', ',', ' ', '5', '0', '0', ',', ' ', '"', '(', 'N', '/', 'A', ')', '"'],
  ['"', 'S', 'G', '-', 'K', 'Z', '"', ',', ' ', '"', 'S', 'B', 'L', '"', ',', ' ', '1', ',', ' ', '"', '3', '"', ',', ' ', '"', '(', '3', ')', '"'],
  ['"', 'R', 'a', 'c', '(', 'K', 'S', ')', '"', ',', ' ', '"', 'B', '-', 'M', '"', ',', ' ', '2', '0', '0', ',', ' ', '"', '(', 'N', '/', 'A', ')', '"'],
  ['"', 'K', 'L', '-', 'M', 'c', '-', '2', '"', ',', ' ', '"', 'S', 'B', 'L', '"', ',', ' ', '1', ',', ' ', '"', '2', '"', ',', ' ', '"', '(', '6', ')', '"'],
  ['"', 'K', 'L', '-', 'M', 'c', '-', '3', '"', ',', ' ', '"', 'S', 'B', 'L', '"', ',', ' ', '1', ',', ' ', '"', '3', '"', ',', ' ', '"', '(', '6', ')', '"'],
  ['"', 'K', 'L', '-', 'M', 'c', '-', '5', '"', ',', ' ', '"', 'S', 'B', 'L', '"', ',', ' ', '1', ',', ' ', '"', '5', '"', ',', ' ', '"', '(', '6', ')', '"'],
  ['"', 'M', 'c', '-', 'K', 'L', '-', '1', '"', ',', ' ', '"', 'S', 'B', 'L', '"', ',', ' ', '2', ',', ' ', '"', '1', '"', ',', ' ', '"', '(', '5', ')', '"'],
  ['"', 'M', 'c', '-', 'K', 'L', '-', '3', '"', ',', ' ', '"', 'S', 'B', 'L', '"', ',', ' ', '2', ',', ' ', '"', '3', '"', ',', ' ', '"', '(', '5', ')', '"'],
  ['"', 'M', 'c', '-', 'K', 'L', '-', '4', '"', ',', ' ', '"', 'S', 'B', 'L', '"', ',', ' ', '2', ',', ' ', '"', '4', '"', ',', ' ', '"', '(', '5', ')', '"'],
  ['"', 'T', 'y', '-', 'T', 'M', 'o', ' ', '"', ',', ' ', '"', 'S', 'B', 'L', '"', ',', ' ', '1', ',', ' ', '"', '1', '"', ',', ' ', '"', '(', '2', ')', '"'],
  ['"', 'C', 'B', '-', 'K', 'T', 'C', '-', '1', '"', ',', ' ', '"', 'S', 'B', 'L', '"', ',', ' ', '2', ',', ' ', '"', '1', '"', ',', ' ', '"', '(', '2', ')', '"'],
  ['"', 'C', 'B', '-', 'R', 'C', 'B', '-', '1', '"', ',', ' ', '"', 'S', 'B', 'L', '"', ',', ' ', '1', ',', ' ', '"', '1', '"', ',', ' ', '"', '(', '3', ')', '"'],
  ['"', 'G', 'L', 'C', '-', 'Z', 'Z', '-', '1', '"', ',', ' ', '"', 'S', 'B', 'L', '"', ',', ' ', '2', ',', ' ', '"', '1', '"', ',', ' ', '"', '(', '5', ')', '"'],
  ['"', 'G', 'L', 'C', '-', 'Z', 'Z', '-', '2', '"', ',', ' ', '"', 'S', 'B', 'L', '"', ',', ' ', '2', ',', ' ', '"', '2', '"', ',', ' ', '"', '(', '5', ')', '"'],
  ['"', 'G', 'L', 'C', '-', 'Z', 'Z', '-', '3', '"', ',', ' ', '"', 'S', 'B', 'L', '"', ',', ' ', '2', ',', ' ', '"', '3', '"', ',', ' ', '"', '(', '5', ')', '"'],
  ['"', 'G', 'L', 'C', '-', 'Z', 'Z', '-', '4', '"', ',', ' ', '"', 'S', 'B', 'L', '"', ',', ' ', '2', ',', ' ', '"', '4', '"', ',', ' ', '"', '(', '5', ')', '"'],
  ['"', 'K', 'L', '-', 'B', 'r', 'y', '-', '1', '"', ',', ' ', '"', 'S', 'B', 'L', '"', ',', ' ', '2', ',', ' ', '"', '1', '"', ',', ' ', '"', '(', '2', ')', '"'],
  ['"', 'K', 'O', '-', 'K', 'T', 'C', '-', '1', '"', ',', ' ', '"', 'S', 'B', 'L', '"', ',', ' ', '1', ',', ' ', '"', '1', '"', ',', ' ', '"', '(', '2', ')', '"'],
  ['"', 'K', 'T', 'C', '-', 'C', 'B', '-', '1', '"', ',', ' ', '"', 'S', 'B', 'L', '"', ',', ' ', '1', ',', ' ', '"', '1', '"', ',', ' ', '"', '(', '2', ')', '"'],
  ['"', 'R', 'C', 'B', '-', 'C', 'B', '-', '1', '"', ',', ' ', '"', 'S', 'B', 'L', '"', ',', ' ', '2', ',', ' ', '"', '1', '"', ',', ' ', '"', '(', '3', ')', '"'],
  ['"', 'R', 'C', 'B', '-', 'Z', 'Z', '-', '1', '"', ',', ' ', '"', 'S', 'B', 'L', '"', ',', ' ', '1', ',', ' ', '"', '1', '"', ',', ' ', '"', '(', '4', ')', '"'],
  ['"', 'R', 'C', 'B', '-', 'Z', 'Z', '-', '3', '"', ',', ' ', '"', 'S', 'B', 'L', '"', ',', ' ', '1', ',', ' ', '"', '3', '"', ',', ' ', '"', '(', '4', ')', '"'],
  ['"', 'S', 'z', 'b', '-', 'K', 'Z', '-', '3', '"', ',', ' ', '"', 'S', 'B', 'L', '"', ',', ' ', '3', ',', ' ', '"', '2', '"', ',', ' ', '"', '(', '2', ')', '"'],
  ['"', 'T', 'y', '-', 'K', 'o', 'b', '-', '1', '"', ',', ' ', '"', 'S', 'B', 'L', '"', ',', ' ', '1', ',', ' ', '"', '1', '"', ',', ' ', '"', '(', '6', ')', '"'],
  ['"', 'Z', 'Z', '-', 'G', 'L', 'C', '-', '1', '"', ',', ' ', '"', 'S', 'B', 'L', '"', ',', ' ', '1', ',', ' ', '"', '1', '"', ',', ' ', '"', '(', '5', ')', '"'],
  ['"', 'Z', 'Z', '-', 'G', 'L', 'C', '-', '2', '"', ',', ' ', '"', 'S', 'B', 'L', '"', ',', ' ', '1', ',', ' ', '"', '2', '"', ',', ' ', '"', '(', '5', ')', '"'],
  ['"', 'Z', 'Z', '-', 'G', 'L', 'C', '-', '3', '"', ',', ' ', '"', 'S', 'B', 'L', '"', ',', ' ', '1', ',', ' ', '"', '3', '"', ',', ' ', '"', '(', '5', ')', '"'],
  ['"', 'Z', 'Z', '-', 'G', 'L', 'C', '-', '4', '"', ',', ' ', '"', 'S', 'B', 'L', '"', ',', ' ', '1', ',', ' ', '"', '4', '"', ',', ' ', '"', '(', '5', ')', '"'],
  ['"', 'Z', 'Z', '-', 'R', 'C', 'B', '-', '1', '"', ',', ' ', '"', 'S', 'B', 'L', '"', ',', ' ', '2', ',', ' ', '"', '1', '"', ',', ' ', '"', '(', '4', ')', '"'],
  ['"', 'Z', 'Z', '-', 'R', 'C', 'B', '-', '2', '"', ',', ' ', '"', 'S', 'B', 'L', '"', ',', ' ', '2', ',', ' ', '"', '2', '"', ',', ' ', '"', '(', '4', ')', '"'],
  ['"', 'B', 'r', 'y', '-', 'K', 'L', '-', '1', '"', ',', ' ', '"', 'S', 'B', 'L', '+', 'P', 'O', 'G', 'P', '"', ',', ' ', '1', ',', ' ', '"', '1', '"', ',', ' ', '"', '(', '2', ')', '"'],
  ['"', 'C', 'B', '-', 'C', 'M', '"', ',', ' ', '"', 'S', 'B', 'L', '+', 'S', 'e', 'm', '(', 'S', 'T', ')', '"', ',', ' ', '1', ',', ' ', '"', '1', '"', ',', ' ', '"', '(', '1', ')', '"'],
  ['"', 'C', 'M', '-', 'C', 'B', '"', ',', ' ', '"', 'S', 'B', 'L', '+', 'S', 'e', 'm', '(', 'S', 'T', ')', '"', ',', ' ', '2', ',', ' ', '"', '1', '"', ',', ' ', '"', '(', '1', ')', '"'],
  ['"', 'C', 'M', '-', 'C', 'S', '"', ',', ' ', '"', 'S', 'e', 'm', '(', 'o', 'd', 's', 't', 'ę', 'p', ')', '"', ',', ' ', '1', ',', ' ', '"', '1', '"', ',', ' ', '"', '(', '1', ')', '"'],
  ['"', 'C', 'S', '-', 'C', 'M', '"', ',', ' ', '"', 'S', 'e', 'm', '(', 'o', 'd', 's', 't', 'ę', 'p', ')', '"', ',', ' ', '2', ',', ' ', '"', '1', '"', ',', ' ', '"', '(', '1', ')', '"'],
  ['"', 'K', 'O', '-', 'K', 'T', 'C', '-', '2', '"', ',', ' ', '"', 'S', 'B', 'L', '+', 'P', 'O', 'G', 'P', '"', ',', ' ', '1', ',', ' ', '"', '2', '"', ',', ' ', '"', '(', '2', ')', '"'],
  ['"', 'K', 'O', '-', 'K', 'Z', '"', ',', ' ', '"', 'S', 'B', 'L', '+', 'S', 'e', 'm', '(', 'S', 'T', ')', '"', ',', ' ', '2', ',', ' ', '"', '1', '"', ',', ' ', '"', '(', '1', ')', '"'],
  ['"', 'K', 'O', '-', 'K', 'Z', '"', ',', ' ', '"', 'S', 'B', 'L', '+', 'S', 'e', 'm', '(', 'S', 'T', ')', '"', ',', ' ', '4', ',', ' ', '"', '1', '"', ',', ' ', '"', '(', '1', ')', '"'],
  ['"', 'K', 'Z', '-', 'K', 'O', '"', ',', ' ', '"', 'S', 'B', 'L', '+', 'S', 'e', 'm', '(', 'S', 'T', ')', '"', ',', ' ', '1', ',', ' ', '"', '1', '"', ',', ' ', '"', '(', '1', ')', '"'],
  ['"', 'K', 'Z', '-', 'K', 'O', '"', ',', ' ', '"', 'S', 'B', 'L', '+', 'S', 'e', 'm', '(', 'S', 'T', ')', '"', ',', ' ', '3', ',', ' ', '"', '1', '"', ',', ' ', '"', '(', '1', ')', '"'],
  ['"', 'K', 'Z', '-', 'S', 'G', '"', ',', ' ', '"', 'S', 'B', 'L', '+', 'S', 'e', 'm', '(', 'S', 'T', ')', '"', ',', ' ', '2', ',', ' ', '"', '1', '"', ',', ' ', '"', '(', '3', ')', '"'],
  ['"', 'M', 'J', '-', 'M', 'i', '"', ',', ' ', '"', 'S', 'e', 'm', '(', 'o', 'd', 's', 't', 'e', 'p', ')', '"', ',', ' ', '1', ',', ' ', '"', '1', '"', ',', ' ', '"', '(', '1', ')', '"'],
  ['"', 'T', 'y', '-', 'M', 'c', '"', ',', ' ', '"', 'S', 'e', 'm', '(', 'o', 'd', 's', 't', 'e', 'p', ')', '"', ',', ' ', '2', ',', ' ', '"', '1', '"', ',', ' ', '"', '(', '1', ')', '"'],
  ['"', 'T', 'y', '-', 'Ł', 'Ś', '"', ',', ' ', '"', 'S', 'e', 'm', '(', 'o', 'd', 's', 't', 'e', 'p', ')', '"', ',', ' ', '1', ',', ' ', '"', '1', '"', ',', ' ', '"', '(', '1', ')', '"'],
  ['"', 'M', 'i', '_', 'Ł', 'G', 'B', '"', ',', ' ', '"', 'S', 'e', 'm', '(', 'o', 'd', 's', 't', 'ę', 'p', ')', '"', ',', ' ', '1', ',', ' ', '"', '1', '"', ',', ' ', '"', '(', '1', ')', '"'],
  ['"', 'T', 'M', 'o', '-', 'T', 'y', '"', ',', ' ', '"', 'S', 'e', 'm', '(', 'o', 'd', 's', 't', 'ę', 'p', ')', '"', ',', ' ', '2', ',', ' ', '"', '1', '"', ',', ' ', '"', '(', '1', ')', '"'],
  ['"', 'B', 'r', 'y', '-', 'K', 'O', '"', ',', ' ', '"', 'P', 'O', 'D', 'G', '+', 'S', 'e', 'm', '(', 'S', 'T', ')', '"', ',', ' ', '2', ',', ' ', '"', '1', '"', ',', ' ', '"', '(', '1', ')', '"'],
  ['"', 'G', 'L', 'C', '-', 'S', 'z', 'o', '"', ',', ' ', '"', 'S', 'e', 'm', '(', 'o', 'd', 's', 't', 'e', 'p', ')', '"', ',', ' ', '1', ',', ' ', '"', '1', '"', ',', ' ', '"', '(', '1', ')', '"'],
  ['"', 'K', 'L', '-', 'M', 'J', '-', '2', '"', ',', ' ', '"', 'S', 'e', 'm', '(', 'o', 'd', 's', 't', 'e', 'p', ')', '"', ',', ' ', '1', ',', ' ', '"', '2', '"', ',', ' ', '"', '(', '2', ')', '"'],
  ['"', 'K', 'O', '-', 'B', 'r', 'y', '"', ',', ' ', '"', 'S', 'T', '+', 'S', 'e', 'm', '(', 'P', 'O', 'D', 'G', ')', '"', ',', ' ', '3', ',', ' ', '"', '1', '"', ',', ' ', '"', '(', '1', ')', '"'],
  ['"', 'M', 'c', '-', 'K', 'L', '-', '5', '"', ',', ' ', '"', 'S', 'B', 'L', '+', 'S', 'e', 'm', '(', 'S', 'T', ')', '"', ',', ' ', '2', ',', ' ', '"', '5', '"', ',', ' ', '"', '(', '5', ')', '"'],
  ['"', 'S', 'z', 'o', '-', 'G', 'L', 'C', '"', ',', ' ', '"', 'S', 'B', 'L', '(', 'o', 'd', 's', 't', 'e', 'p', ')', '"', ',', ' ', '2', ',', ' ', '"', '1', '"', ',', ' ', '"', '(', '1', ')', '"'],
  ['"', 'B', 'r', 'y', '-', 'K', 'L', '-', '2', '"', ',', ' ', '"', 'S', 'B', 'L', '+', 'S', 'e', 'm', '(', 'S', 'T', ')', '"', ',', ' ', '1', ',', ' ', '"', '2', '"', ',', ' ', '"', '(', '2', ')', '"'],
  ['"', 'C', 'B', '-', 'R', 'C', 'B', '-', '3', '"', ',', ' ', '"', 'S', 'B', 'L', '+', 'S', 'e', 'm', '(', 'S', 'T', ')', '"', ',', ' ', '1', ',', ' ', '"', '3', '"', ',', ' ', '"', '(', '3', ')', '"'],
  ['"', 'G', 'L', 'C', '-', 'Z', 'Z', '-', '5', '"', ',', ' ', '"', 'S', 'B', 'L', '+', 'S', 'e', 'm', '(', 'S', 'T', ')', '"', ',', ' ', '2', ',', ' ', '"', '5', '"', ',', ' ', '"', '(', '5', ')', '"'],
  ['"', 'K', 'T', 'C', '-', 'C', 'B', '-', '2', '"', ',', ' ', '"', 'S', 'B', 'L', '+', 'S', 'e', 'm', '(', 'S', 'T', ')', '"', ',', ' ', '1', ',', ' ', '"', '2', '"', ',', ' ', '"', '(', '2', ')', '"'],
  ['"', 'K', 'T', 'C', '-', 'K', 'O', '-', '2', '"', ',', ' ', '"', 'S', 'B', 'L', '+', 'S', 'e', 'm', '(', 'S', 'T', ')', '"', ',', ' ', '2', ',', ' ', '"', '2', '"', ',', ' ', '"', '(', '2', ')', '"'],
  ['"', 'K', 'Z', '-', 'S', 'z', 'b', '-', '1', '"', ',', ' ', '"', 'S', 'B', 'L', '+', 'S', 'e', 'm', '(', 'S', 'T', ')', '"', ',', ' ', '4', ',', ' ', '"', '1', '"', ',', ' ', '"', '(', '3', ')', '"'],
  ['"', 'K', 'o', 'b', '-', 'T', 'y', '-', '6', '"', ',', ' ', '"', 'S', 'B', 'L', '+', 'S', 'e', 'm', '(', 'S', 'T', ')', '"', ',', ' ', '2', ',', ' ', '"', '6', '"', ',', ' ', '"', '(', '6', ')', '"'],
  ['"', 'R', 'C', 'B', '-', 'C', 'B', '-', '3', '"', ',', ' ', '"', 'S', 'B', 'L', '+', 'S', 'e', 'm', '(', 'S', 'T', ')', '"', ',', ' ', '2', ',', ' ', '"', '3', '"', ',', ' ', '"', '(', '3', ')', '"'],
  ['"', 'R', 'C', 'B', '-', 'Z', 'Z', '-', '4', '"', ',', ' ', '"', 'S', 'B', 'L', '+', 'S', 'e', 'm', '(', 'S', 'T', ')', '"', ',', ' ', '1', ',', ' ', '"', '4', '"', ',', ' ', '"', '(', '4', ')', '"'],
  ['"', 'Z', 'Z', '-', 'G', 'L', 'C', '-', '5', '"', ',', ' ', '"', 'S', 'B', 'L', '+', 'S', 'e', 'm', '(', 'S', 'T', ')', '"', ',', ' ', '1', ',', ' ', '"', '5', '"', ',', ' ', '"', '(', '5', ')', '"'],
  ['"', 'Z', 'Z', '-', 'R', 'C', 'B', '-', '4', '"', ',', ' ', '"', 'S', 'B', 'L', '+', 'S', 'e', 'm', '(', 'S', 'T', ')', '"', ',', ' ', '2', ',', ' ', '"', '4', '"', ',', ' ', '"', '(', '4', ')', '"'],
  ['"', 'K', 'L', '-', 'M', 'c', '-', '6', '"', ',', ' ', '"', 'S', 'B', 'L', '+', 'S', 'e', 'm', '(', 'P', 'O', 'D', 'G', ')', '"', ',', ' ', '1', ',', ' ', '"', '6', '"', ',', ' ', '"', '(', '6', ')', '"'],
  ['"', 'C', 'B', '-', 'K', 'T', 'C', '-', '2', '"', ',', ' ', '"', 'S', 'B', 'L', '+', 'S', 'e', 'm', '(', 'P', 'O', 'D', 'G', ')', '"', ',', ' ', '2', ',', ' ', '"', '2', '"', ',', ' ', '"', '(', '2', ')', '"'],
  ['"', 'K', 'L', '-', 'B', 'r', 'y', '-', '2', '"', ',', ' ', '"', 'S', 'B', 'L', '+', 'S', 'e', 'm', '(', 'P', 'O', 'D', 'G', ')', '"', ',', ' ', '2', ',', ' ', '"', '2', '"', ',', ' ', '"', '(', '2', ')', '"'],
  ['"', 'G', 't', '-', 'C', 'B', '"', ',', ' ', '"', 'S', 'e', 'm', '(', 'P', 'O', 'D', 'G', ')', '+', 'S', 'e', 'm', '(', 'S', 'T', ')', '"', ',', ' ', '1', ',', ' ', '"', '1', '"', ',', ' ', '"', '(', '1', ')', '"'],
  ['"', 'K', 'T', 'C', '-', 'K', 'O', '-', '1', '"', ',', ' ', '"', 'S', 'B', 'L', '+', 'P', 'O', '(', 'Z', 'a', 'ł', 'ę', 'ż', 'e', ')', '"', ',', ' ', '2', ',', ' ', '"', '1', '"', ',', ' ', '"', '(', '2', ')', '"'],
  ['"', 'K', 'L', '-', 'M', 'c', '-', '4', '"', ',', ' ', '"', 'S', 'B', 'L', '+', 'P', 'O', '(', 'P', 'o', 'd', 'l', 'e', 's', 'i', 'e', ')', '"', ',', ' ', '1', ',', ' ', '"', '4', '"', ',', ' ', '"', '(', '6', ')', '"'],
  ['"', 'M', 'c', '-', 'K', 'L', '-', '2', '"', ',', ' ', '"', 'S', 'B', 'L', '+', 'P', 'O', '(', 'P', 'o', 'd', 'l', 'e', 's', 'i', 'e', ')', '"', ',', ' ', '2', ',', ' ', '"', '2', '"', ',', ' ', '"', '(', '5', ')', '"'],
  ['"', 'M', 'c', '-', 'T', 'y', '"', ',', ' ', '"', 'S', 'e', 'm', '(', 'o', 'd', 's', 't', 'e', 'p', ')', '+', 'S', 'e', 'm', '(', 'S', 'T', ')', '"', ',', ' ', '1', ',', ' ', '"', '1', '"', ',', ' ', '"', '(', '1', ')', '"'],
  ['"', 'K', 'L', '-', 'M', 'c', '-', '1', '"', ',', ' ', '"', 'S', 'B', 'L', '+', 'P', 'O', '(', 'P', 'i', 'o', 't', 'r', 'o', 'w', 'i', 'c', 'e', ')', '"', ',', ' ', '1', ',', ' ', '"', '1', '"', ',', ' ', '"', '(', '6', ')', '"'],
  ['"', 'K', 'O', '-', 'B', 'u', 'g', 'l', 'a', '-', 'B', 'r', 'y', '-', '1', '"', ',', ' ', '"', 'S', 'e', 'm', '(', 'S', 'T', ')', '+', 'S', 'B', 'L', '"', ',', ' ', '1', ',', ' ', '"', '1', '"', ',', ' ', '"', '(', '2', ')', '"'],
  ['"', 'K', 'T', 'C', '-', 'G', 't', '"', ',', ' ', '"', 'S', 'e', 'm', '(', 'P', 'O', 'D', 'G', ')', '+', 'S', 'e', 'm', '(', 'P', 'O', 'D', 'G', ')', '"', ',', ' ', '1', ',', ' ', '"', '1', '"', ',', ' ', '"', '(', '1', ')', '"'],
  ['"', 'T', 'y', '-', 'M', 'c', '"', ',', ' ', '"', 'S', 'e', 'm', '(', 'o', 'd', 's', 't', 'e', 'p', ')', '+', 'S', 'e', 'm', '(', 'P', 'O', 'D', 'G', ')', '"', ',', ' ', '3', ',', ' ', '"', '1', '"', ',', ' ', '"', '(', '1', ')', '"'],
  ['"', 'K', 'O', '-', 'B', 'u', 'g', 'l', 'a', '-', 'B', 'r', 'y', '-', '2', '"', ',', ' ', '"', 'S', 'B', 'L', '+', 'S', 'e', 'm', '(', 'P', 'O', 'D', 'G', ')', '"', ',', ' ', '1', ',', ' ', '"', '2', '"', ',', ' ', '"', '(', '2', ')', '"'],
  ['"', 'R', 'C', 'B', '-', 'Z', 'Z', '-', '2', '"', ',', ' ', '"', 'S', 'B', 'L', '+', 'P', 'O', '(', 'R', 'u', 'd', 'a', ' ', 'Ś', 'l', 'ą', 's', 'k', 'a', ')', '"', ',', ' ', '1', ',', ' ', '"', '2', '"', ',', ' ', '"', '(', '4', ')', '"'],
  ['"', 'Z', 'Z', '-', 'R', 'C', 'B', '-', '3', '"', ',', ' ', '"', 'S', 'B', 'L', '+', 'P', 'O', '(', 'R', 'u', 'd', 'a', ' ', 'Ś', 'l', 'ą', 's', 'k', 'a', ')', '"', ',', ' ', '2', ',', ' ', '"', '3', '"', ',', ' ', '"', '(', '4', ')', '"'],
  ['"', 'C', 'B', '-', 'R', 'C', 'B', '-', '2', '"', ',', ' ', '"', 'S', 'B', 'L', '+', 'P', 'O', '(', 'Ś', 'w', 'i', 'ę', 't', 'o', 'c', 'h', 'ł', 'o', 'w', 'i', 'c', 'e', ')', '"', ',', ' ', '1', ',', ' ', '"', '2', '"', ',', ' ', '"', '(', '3', ')', '"'],
  ['"', 'R', 'C', 'B', '-', 'C', 'B', '-', '2', '"', ',', ' ', '"', 'S', 'B', 'L', '+', 'P', 'O', '(', 'Ś', 'w', 'i', 'ę', 't', 'o', 'c', 'h', 'ł', 'o', 'w', 'i', 'c', 'e', ')', '"', ',', ' ', '2', ',', ' ', '"', '2', '"', ',', ' ', '"', '(', '3', ')', '"'],
  ['"', 'K', 'L', '-', 'M', 'J', '-', '1', '"', ',', ' ', '"', 'S', 'e', 'm', '(', 'o', 'd', 's', 't', 'e', 'p', ')', '+', 'P', 'O', '(', 'P', 'i', 'o', 't', 'r', 'o', 'w', 'i', 'c', 'e', ')', '"', ',', ' ', '1', ',', ' ', '"', '1', '"', ',', ' ', '"', '(', '2', ')', '"']]

/-- `/repo/data/important_stations.npz` -/
def st : List (String × List Nat) := [
  ("KZ", [17, 18, 19, 20]),
  ("KO", [16, 14, 0, 10, 11, 13, 15, 39]),
  ("KO(STM)", [52, 50, 48, 53, 51, 49, 62, 61, 63, 44]),
  ("KO(KS)", [68]),
  ("KO(IC)", [66]),
  ("CB", [1, 2, 3, 4, 47]),
  ("GLC", [32, 33, 34, 35, 36, 37, 38, 43]),
  ("CM", [5, 6]),
  ("KL", [7, 8, 9]),
  ("Ty", [25, 26, 28, 27, 29]),
  ("Mi", [23, 24]),
  ("MJ", [22, 21])]

/-- `/repo/data/important_stations_Gt.npz` -/
def stgt : List (String × List Nat) := [
  ("KZ", [17, 18, 19, 20]),
  ("KO", [16, 14, 0, 10, 11, 13, 15, 39]),
  ("KO(STM)", [52, 50, 48, 53, 51, 49, 62, 61, 63, 44]),
  ("KO(KS)", [68]),
  ("KO(IC)", [66]),
  ("CB", [1, 2, 3, 4, 47]),
  ("GLC", [32, 33, 34, 35, 36, 37, 38, 43]),
  ("CM", [5, 6]),
  ("KL", [7, 8, 9]),
  ("Ty", [25, 26, 28, 27, 29]),
  ("Mi", [23, 24]),
  ("MJ", [22, 21]),
  ("KTC", [133, 101])]

/-- `/repo/data/KO_GLC/important_stations_KO_GLC.npz` -/
def stko : List (String × List Nat) := [
  ("KO", [16, 14, 0, 10, 11, 13, 15, 39]),
  ("CB", [1, 2, 3, 4, 47]),
  ("GLC", [32, 33, 34, 35, 36, 37, 38, 43])]

/-- `/repo/data/KO_GLC/important_stations_KO_GLC_R.npz` -/
def stkor : List (String × List Nat) := [
  ("KO", [16, 14, 0, 10, 11, 13, 15, 39]),
  ("CB", [1, 2, 3, 4, 47]),
  ("RCB", [40, 41]),
  ("ZZ", [30, 31]),
  ("GLC", [32, 33, 34, 35, 36, 37, 38, 43])]

/-- `/repo/data/network_paths.ods`, part 1 -/
def table1 : List (Nat × Nat × PathRow) := [
  (67, 17, ⟨"", "", .textInt 10, some (7/10), some (7/10), some (7/10), some (21/10)⟩),
  (67, 18, ⟨"", "", .textTuple [10, 11], some (6/5), some (6/5), some (6/5), some (13/5)⟩),
  (67, 19, ⟨"", "", .textTuple [10, 11, 12], some (6/5), some (6/5), some (6/5), some (13/5)⟩),
  (67, 20, ⟨"", "", .textTuple [10, 11, 12, 13], some (6/5), some (6/5), some (6/5), some (13/5)⟩),
  (106, 17, ⟨"", "", .textTuple [11, 21, 22], some (7/10), some (7/10), some (6/5), some (13/5)⟩),
  (106, 18, ⟨"", "", .textTuple [11, 21], some (6/5), some (6/5), some (7/10), some (21/10)⟩),
  (106, 19, ⟨"", "", .textTuple [11, 12], some (6/5), some (6/5), some (6/5), some (13/5)⟩),
  (106, 20, ⟨"", "", .textTuple [11, 12, 13], some (6/5), some (6/5), some (6/5), some (13/5)⟩),
  (88, 19, ⟨"", "", .textInt 12, some (2/5), some (9/10), some (7/10), some (21/10)⟩),
  (88, 20, ⟨"", "", .textTuple [12, 13], some (9/10), some (7/5), some (6/5), some (13/5)⟩),
  (123, 20, ⟨"", "", .textInt 13, some (2/5), some (9/10), some (7/10), some (21/10)⟩),
  (17, 104, ⟨"", "", .float 47 53, some (7/10), some (17/10), some (9/5), some (23/10)⟩),
  (17, 102, ⟨"", "", .textTuple [47, 48, 52], some (6/5), some (11/5), some (9/5), some (23/10)⟩),
  (17, 105, ⟨"", "", .textTuple [47, 48, 49, 51], some (6/5), some (11/5), some (9/5), some (23/10)⟩),
  (17, 103, ⟨"", "", .textTuple [47, 48, 49, 50], some (6/5), some (11/5), some (9/5), some (23/10)⟩),
  (18, 104, ⟨"", "", .textTuple [48, 52, 53], some (6/5), some (11/5), some (9/5), some (23/10)⟩),
  (18, 102, ⟨"", "", .float 48 52, some (6/5), some (11/5), some (13/10), some (9/5)⟩),
  (18, 105, ⟨"", "", .textTuple [48, 49, 51], some (6/5), some (11/5), some (9/5), some (23/10)⟩),
  (18, 103, ⟨"", "", .textTuple [48, 49, 50], some (6/5), some (11/5), some (9/5), some (23/10)⟩),
  (19, 104, ⟨"", "", .textTuple [42, 49, 51, 52, 53], some (6/5), some (11/5), some (9/5), some (23/10)⟩),
  (19, 102, ⟨"", "", .textTuple [42, 49, 51, 52], some (6/5), some (11/5), some (9/5), some (23/10)⟩),
  (19, 105, ⟨"", "", .textTuple [42, 49, 51], some (7/10), some (17/10), some (9/5), some (23/10)⟩),
  (19, 103, ⟨"", "", .textTuple [42, 49, 50], some (6/5), some (11/5), some (9/5), some (23/10)⟩),
  (20, 104, ⟨"", "", .textTuple [41, 42, 49, 51, 52, 53], some (6/5), some (11/5), some (9/5), some (23/10)⟩),
  (20, 102, ⟨"", "", .textTuple [41, 42, 49, 51, 52], some (6/5), some (11/5), some (9/5), some (23/10)⟩),
  (20, 105, ⟨"", "", .textTuple [41, 42, 49, 51], some (6/5), some (11/5), some (9/5), some (23/10)⟩),
  (20, 103, ⟨"", "", .textTuple [41, 50], some (6/5), some (11/5), some (13/10), some (9/5)⟩),
  (104, 48, ⟨"", "", .textTuple [5, 6, 13, 24], some (6/5), some (7/5), some (17/10), some (19/10)⟩),
  (104, 49, ⟨"", "", .textTuple [5, 6, 7, 11, 17, 20, 23], some (6/5), some (7/5), some (17/10), some (19/10)⟩),
  (104, 50, ⟨"", "", .textTuple [5, 18, 22, 25], some (17/10), some (19/10), some (17/10), some (19/10)⟩),
  (104, 51, ⟨"", "", .textTuple [5, 5, 7, 11, 17, 20, 23], some (17/10), some (19/10), some (17/10), some (19/10)⟩),
  (104, 52, ⟨"", "", .textTuple [5, 18], some (6/5), some (7/5), some (17/10), some (19/10)⟩),
  (104, 53, ⟨"", "", .textTuple [5, 6, 7, 8, 14, 21], some (17/10), some (19/10), some (17/10), some (19/10)⟩),
  (104, 44, ⟨"", "", .textTuple [5, 6, 7, 8, 15, 16, 28], some (17/10), some (19/10), some (17/10), some (19/10)⟩),
  (102, 48, ⟨"", "", .textTuple [6, 13, 24], some (17/10), some (19/10), some (6/5), some (7/5)⟩),
  (102, 49, ⟨"", "", .textTuple [6, 7, 11, 17, 20, 23], some (17/10), some (19/10), some (6/5), some (7/5)⟩),
  (102, 50, ⟨"", "", .textTuple [6, 13, 22, 25], some (17/10), some (19/10), some (6/5), some (7/5)⟩),
  (102, 51, ⟨"", "", .textTuple [6, 7, 11, 17, 20, 23], some (17/10), some (19/10), some (6/5), some (7/5)⟩),
  (102, 53, ⟨"", "", .textTuple [6, 7, 8, 14, 21], some (17/10), some (19/10), some (6/5), some (7/5)⟩),
  (102, 44, ⟨"", "", .textTuple [6, 7, 8, 15, 16, 28], some (17/10), some (19/10), some (17/10), some (19/10)⟩),
  (105, 48, ⟨"", "", .textTuple [7, 11, 13, 24], some (6/5), some (7/5), some (17/10), some (19/10)⟩),
  (105, 49, ⟨"", "", .textTuple [7, 11, 20, 23], some (6/5), some (7/5), some (17/10), some (19/10)⟩),
  (105, 50, ⟨"", "", .textTuple [7, 11, 13, 22, 25], some (17/10), some (19/10), some (17/10), some (19/10)⟩),
  (105, 51, ⟨"", "", .textTuple [7, 11, 17, 20, 23], some (17/10), some (19/10), some (17/10), some (19/10)⟩),
  (105, 53, ⟨"", "", .textTuple [7, 8, 14, 21], some (17/10), some (19/10), some (17/10), some (19/10)⟩),
  (105, 44, ⟨"", "", .textTuple [7, 8, 15, 16, 28], some (17/10), some (19/10), some (17/10), some (19/10)⟩),
  (103, 48, ⟨"", "", .textTuple [8, 14, 17, 19, 24], some (17/10), some (19/10), some (4/5), some (9/10)⟩),
  (103, 49, ⟨"", "", .textTuple [8, 14, 21, 23], some (17/10), some (19/10), some (4/5), some (9/10)⟩),
  (103, 50, ⟨"", "", .textTuple [8, 14, 17, 19, 24, 25], some (17/10), some (19/10), some (17/10), some (19/10)⟩),
  (103, 51, ⟨"", "", .textTuple [8, 14, 21, 23], some (17/10), some (19/10), some (17/10), some (19/10)⟩),
  (103, 53, ⟨"", "", .textTuple [8, 14, 21], some (17/10), some (19/10), some (4/5), some (9/10)⟩),
  (103, 44, ⟨"", "", .textTuple [8, 15, 16, 28], some (17/10), some (19/10), some (17/10), some (19/10)⟩),
  (66, 48, ⟨"", "", .textTuple [1, 9, 14, 17, 19, 24], some (17/10), some (19/10), some (17/10), some (19/10)⟩),
  (66, 49, ⟨"", "", .textTuple [1, 9, 15, 21, 23], some (17/10), some (19/10), some (17/10), some (19/10)⟩),
  (66, 50, ⟨"", "", .textTuple [1, 9, 14, 17, 19, 24, 25], some (17/10), some (19/10), some (17/10), some (19/10)⟩),
  (66, 51, ⟨"", "", .textTuple [1, 9, 15, 21, 23], some (17/10), some (19/10), some (17/10), some (19/10)⟩),
  (66, 53, ⟨"", "", .textTuple [1, 9, 15, 21], some (17/10), some (19/10), some (17/10), some (19/10)⟩),
  (66, 44, ⟨"", "", .textTuple [1, 9, 15, 16, 28], some (17/10), some (19/10), some (17/10), some (19/10)⟩),
  (52, 16, ⟨"", "", .textTuple [39, 54], some (17/10), some (17/10), some (17/10), some (19/10)⟩),
  (52, 14, ⟨"", "", .textTuple [39, 54, 55], some (17/10), some (17/10), some (17/10), some (19/10)⟩),
  (50, 16, ⟨"", "", .textTuple [37, 39, 54], some (17/10), some (17/10), some 3, some 3⟩),
  (50, 14, ⟨"", "", .textTuple [37, 53, 55], some (17/10), some (17/10), some 3, some 3⟩),
  (50, 45, ⟨"", "", .textTuple [37, 53], some (17/10), some (17/10), some (3/2), some (3/2)⟩),
  (48, 16, ⟨"", "", .textTuple [36, 67, 39, 54], some (17/10), some (17/10), some 3, some 3⟩),
  (48, 14, ⟨"", "", .textTuple [36, 67, 53, 55], some (17/10), some (17/10), some 3, some 3⟩),
  (48, 45, ⟨"", "", .textTuple [36, 37, 53], some (17/10), some (17/10), some (3/2), some (3/2)⟩),
  (48, 12, ⟨"", "", .textTuple [36, 52], some (17/10), some (17/10), some 3, some 3⟩),
  (48, 10, ⟨"", "", .textTuple [36, 52], some (17/10), some (17/10), some 3, some 3⟩),
  (61, 16, ⟨"", "", .textTuple [32, 33, 36, 67, 39, 54], some (17/10), some (17/10), some 3, some 3⟩),
  (61, 14, ⟨"", "", .textTuple [32, 33, 36, 67, 53, 55], some (17/10), some (17/10), some 3, some 3⟩),
  (61, 45, ⟨"", "", .textTuple [32, 33, 36, 37, 53], some (17/10), some (17/10), some (3/2), some (3/2)⟩),
  (61, 12, ⟨"", "", .textTuple [32, 33, 36, 52], some (17/10), some (17/10), some 3, some 3⟩),
  (61, 10, ⟨"", "", .textTuple [32, 33, 36, 52], some (17/10), some (17/10), some 3, some 3⟩),
  (61, 11, ⟨"", "", .textTuple [32, 34, 35, 51], some (17/10), some (17/10), some 3, some 3⟩),
  (61, 13, ⟨"", "", .textTuple [32, 34, 35, 51, 56], some (17/10), some (17/10), some 3, some 3⟩),
  (61, 46, ⟨"", "", .textTuple [32, 34, 35, 40, 48, 50, 57], some (17/10), some (17/10), some (3/2), some (3/2)⟩),
  (61, 15, ⟨"", "", .textTuple [32, 34, 35, 40, 41, 42, 49], some (17/10), some (17/10), some 3, some 3⟩),
  (61, 39, ⟨"", "", .textTuple [32, 34, 35, 40, 41, 42], some (17/10), some (17/10), some 3, some 3⟩),
  (62, 16, ⟨"", "", .textTuple [31, 33, 36, 67, 39, 54], some (17/10), some (17/10), some 3, some 3⟩),
  (62, 14, ⟨"", "", .textTuple [31, 33, 36, 67, 53, 55], some (17/10), some (17/10), some 3, some 3⟩),
  (62, 45, ⟨"", "", .textTuple [31, 33, 36, 37, 53], some (17/10), some (17/10), some (3/2), some (3/2)⟩),
  (62, 12, ⟨"", "", .textTuple [31, 33, 36, 52], some (17/10), some (17/10), some 3, some 3⟩),
  (62, 10, ⟨"", "", .textTuple [31, 33, 36, 52], some (17/10), some (17/10), some 3, some 3⟩),
  (62, 11, ⟨"", "", .textTuple [31, 34, 35, 51], some (17/10), some (17/10), some 3, some 3⟩),
  (62, 13, ⟨"", "", .textTuple [31, 34, 35, 51, 56], some (17/10), some (17/10), some 3, some 3⟩),
  (62, 46, ⟨"", "", .textTuple [31, 34, 35, 40, 48, 50, 57], some (17/10), some (17/10), some (3/2), some (3/2)⟩),
  (62, 15, ⟨"", "", .textTuple [31, 34, 35, 40, 41, 42, 49], some (17/10), some (17/10), some 3, some 3⟩),
  (62, 39, ⟨"", "", .textTuple [31, 34, 35, 40, 41, 42], some (17/10), some (17/10), some 3, some 3⟩),
  (49, 11, ⟨"", "", .textTuple [35, 51], some (17/10), some (17/10), some 3, some 3⟩),
  (49, 13, ⟨"", "", .textTuple [35, 51, 56], some (17/10), some (17/10), some 3, some 3⟩)]

/-- `/repo/data/network_paths.ods`, part 2 -/
def table2 : List (Nat × Nat × PathRow) := [
  (49, 46, ⟨"", "", .textTuple [35, 40, 48, 50, 57], some (17/10), some (17/10), some (3/2), some (3/2)⟩),
  (49, 15, ⟨"", "", .textTuple [35, 40, 41, 42, 49], some (17/10), some (17/10), some 3, some 3⟩),
  (49, 39, ⟨"", "", .textTuple [35, 40, 41, 42, 47], some (17/10), some (17/10), some 3, some 3⟩),
  (51, 13, ⟨"", "", .textTuple [40, 48, 50, 56], some (17/10), some (17/10), some 3, some 3⟩),
  (51, 46, ⟨"", "", .textTuple [40, 48, 50, 57], some (17/10), some (17/10), some (3/2), some (3/2)⟩),
  (51, 15, ⟨"", "", .textTuple [40, 41, 42], some (17/10), some (17/10), some 3, some 3⟩),
  (51, 39, ⟨"", "", .textTuple [40, 41, 42, 47], some (17/10), some (17/10), some 3, some 3⟩),
  (53, 13, ⟨"", "", .textTuple [38, 48, 50, 56], some (17/10), some (17/10), some 3, some 3⟩),
  (53, 46, ⟨"", "", .textTuple [38, 48, 50, 57], some (17/10), some (17/10), some (3/2), some (3/2)⟩),
  (53, 15, ⟨"", "", .textTuple [38, 41, 42], some (17/10), some (17/10), some 3, some 3⟩),
  (53, 39, ⟨"", "", .textTuple [38, 41, 42, 47], some (17/10), some (17/10), some 3, some 3⟩),
  (63, 46, ⟨"", "", .textTuple [43, 42, 49, 57], some (17/10), some (17/10), some (3/2), some (3/2)⟩),
  (63, 15, ⟨"", "", .textTuple [43, 42, 49], some (17/10), some (17/10), some 3, some 3⟩),
  (63, 39, ⟨"", "", .textTuple [43, 42], some (17/10), some (17/10), some 3, some 3⟩),
  (44, 39, ⟨"", "", .textTuple [45, 46, 47], some (17/10), some (17/10), some 3, some 3⟩),
  (16, 138, ⟨"", "", .textTuple [62, 64, 69, 70, 72, 74], some 3, some 3, some 1, some 1⟩),
  (16, 83, ⟨"", "", .textTuple [62, 64, 69, 71, 87, 92], some 3, some 3, some 1, some 1⟩),
  (16, 122, ⟨"", "", .textTuple [62, 64, 69, 71, 87, 88, 91], some 3, some 3, some 1, some 1⟩),
  (16, 68, ⟨"", "", .textTuple [62, 64, 69, 71, 87, 88, 90, 95], some 3, some 3, some 1, some 1⟩),
  (16, 115, ⟨"", "", .textTuple [62, 64, 69, 71, 87, 88, 90, 95], some 3, some 3, some 1, some 1⟩),
  (16, 112, ⟨"", "", .textTuple [62, 64, 69, 71, 87, 88, 90, 93], some 3, some 3, some 1, some 1⟩),
  (14, 138, ⟨"", "", .textTuple [61, 64, 69, 70, 72, 74], some 3, some 3, some 1, some 1⟩),
  (14, 83, ⟨"", "", .textTuple [61, 64, 69, 71, 87, 92], some 3, some 3, some 1, some 1⟩),
  (14, 122, ⟨"", "", .textTuple [61, 64, 69, 71, 87, 88, 91], some 3, some 3, some 1, some 1⟩),
  (14, 68, ⟨"", "", .textTuple [61, 64, 69, 71, 87, 88, 90, 95], some 3, some 3, some 1, some 1⟩),
  (14, 115, ⟨"", "", .textTuple [61, 64, 69, 71, 87, 88, 90, 95], some 3, some 3, some 1, some 1⟩),
  (14, 112, ⟨"", "", .textTuple [61, 64, 69, 71, 87, 88, 90, 93], some 3, some 3, some 1, some 1⟩),
  (45, 138, ⟨"", "", .textTuple [61, 64, 69, 70, 72, 74], some (3/2), some (3/2), some 1, some 1⟩),
  (45, 83, ⟨"", "", .textTuple [61, 64, 69, 71, 87, 92], some (3/2), some (3/2), some 1, some 1⟩),
  (45, 122, ⟨"", "", .textTuple [61, 64, 69, 71, 87, 88, 91], some (3/2), some (3/2), some 1, some 1⟩),
  (45, 68, ⟨"", "", .textTuple [61, 64, 69, 71, 87, 88, 90, 95], some (3/2), some (3/2), some 1, some 1⟩),
  (45, 115, ⟨"", "", .textTuple [61, 64, 69, 71, 87, 88, 90, 95], some (3/2), some (3/2), some 1, some 1⟩),
  (45, 112, ⟨"", "", .textTuple [61, 64, 69, 71, 87, 88, 90, 93], some (3/2), some (3/2), some 1, some 1⟩),
  (12, 138, ⟨"", "", .textTuple [65, 68, 70, 72, 74], some 3, some 3, some 1, some 1⟩),
  (12, 83, ⟨"", "", .textTuple [65, 68, 71, 87, 92], some 3, some 3, some 1, some 1⟩),
  (12, 122, ⟨"", "", .textTuple [65, 67, 85, 88, 91], some 3, some 3, some 1, some 1⟩),
  (12, 68, ⟨"", "", .textTuple [65, 67, 85, 88, 90, 95], some 3, some 3, some 1, some 1⟩),
  (12, 115, ⟨"", "", .textTuple [65, 67, 85, 88, 90, 95], some 3, some 3, some 1, some 1⟩),
  (12, 112, ⟨"", "", .textTuple [65, 67, 85, 88, 90, 93], some 3, some 3, some 1, some 1⟩),
  (10, 138, ⟨"", "", .textTuple [66, 68, 70, 72, 74], some 3, some 3, some 1, some 1⟩),
  (10, 83, ⟨"", "", .textTuple [66, 68, 71, 87, 92], some 3, some 3, some 1, some 1⟩),
  (10, 122, ⟨"", "", .textTuple [66, 67, 85, 88, 91], some 3, some 3, some 1, some 1⟩),
  (10, 68, ⟨"", "", .textTuple [66, 67, 85, 88, 90, 95], some 3, some 3, some 1, some 1⟩),
  (10, 115, ⟨"", "", .textTuple [66, 67, 85, 88, 90, 95], some 3, some 3, some 1, some 1⟩),
  (10, 112, ⟨"", "", .textTuple [66, 67, 85, 88, 90, 93], some 3, some 3, some 1, some 1⟩),
  (11, 83, ⟨"", "", .textTuple [81, 85, 88, 81, 92], some 3, some 3, some 1, some 1⟩),
  (11, 122, ⟨"", "", .textTuple [81, 85, 88, 91], some 3, some 3, some 1, some 1⟩),
  (11, 68, ⟨"", "", .textTuple [81, 83, 89, 90, 95], some 3, some 3, some 1, some 1⟩),
  (11, 115, ⟨"", "", .textTuple [81, 83, 89, 90, 95], some 3, some 3, some 1, some 1⟩),
  (11, 112, ⟨"", "", .textTuple [81, 83, 89, 90, 93], some 3, some 3, some 1, some 1⟩),
  (13, 83, ⟨"", "", .textTuple [81, 85, 88, 81, 92], some 3, some 3, some 1, some 1⟩),
  (13, 122, ⟨"", "", .textTuple [81, 85, 88, 91], some 3, some 3, some 1, some 1⟩),
  (13, 68, ⟨"", "", .textTuple [81, 83, 89, 90, 95], some 3, some 3, some 1, some 1⟩),
  (13, 115, ⟨"", "", .textTuple [81, 83, 89, 90, 95], some 3, some 3, some 1, some 1⟩),
  (13, 112, ⟨"", "", .textTuple [81, 83, 89, 90, 93], some 3, some 3, some 1, some 1⟩),
  (46, 83, ⟨"", "", .textTuple [83, 89, 91, 92], some (3/2), some (3/2), some 1, some 1⟩),
  (46, 122, ⟨"", "", .textTuple [83, 89, 91], some (3/2), some (3/2), some 1, some 1⟩),
  (46, 68, ⟨"", "", .textTuple [83, 89, 90, 95], some (3/2), some (3/2), some 1, some 1⟩),
  (46, 115, ⟨"", "", .textTuple [83, 89, 90, 95], some (3/2), some (3/2), some 1, some 1⟩),
  (46, 112, ⟨"", "", .textTuple [83, 89, 90, 93], some (3/2), some (3/2), some 1, some 1⟩),
  (15, 83, ⟨"", "", .textTuple [82, 84, 86, 89, 90, 92], some 3, some 3, some 1, some 1⟩),
  (15, 122, ⟨"", "", .textTuple [82, 84, 86, 89, 91], some 3, some 3, some 1, some 1⟩),
  (15, 68, ⟨"", "", .textTuple [82, 84, 86, 89, 90, 95], some 3, some 3, some 1, some 1⟩),
  (15, 115, ⟨"", "", .textTuple [82, 84, 86, 89, 90, 95], some 3, some 3, some 1, some 1⟩),
  (15, 112, ⟨"", "", .textTuple [82, 84, 86, 93], some 3, some 3, some 1, some 1⟩),
  (39, 83, ⟨"", "", .textTuple [82, 84, 86, 89, 90, 92], some 3, some 3, some 1, some 1⟩),
  (39, 122, ⟨"", "", .textTuple [82, 84, 86, 89, 91], some 3, some 3, some 1, some 1⟩),
  (39, 68, ⟨"", "", .textTuple [82, 84, 86, 89, 90, 95], some 3, some 3, some 1, some 1⟩),
  (39, 115, ⟨"", "", .textTuple [82, 84, 86, 89, 90, 95], some 3, some 3, some 1, some 1⟩),
  (39, 112, ⟨"", "", .textTuple [82, 84, 86, 93], some 3, some 3, some 1, some 1⟩),
  (83, 101, ⟨"", "", .textInt 100, some (9/10), some (9/10), some (6/5), some (11/5)⟩),
  (122, 133, ⟨"", "", .textInt 200, some (9/10), some (9/10), some (6/5), some (11/5)⟩),
  (101, 84, ⟨"", "", .int 415, some (6/5), some (19/10), some (11/10), some (13/10)⟩),
  (101, 130, ⟨"", "", .float 415 416, some (17/10), some (19/10), some (3/5), some (4/5)⟩),
  (101, 139, ⟨"", "", .textTuple [415, 416, 417], some (5/2), some (5/2), some (5/2), some (5/2)⟩),
  (133, 130, ⟨"", "", .int 416, some (17/10), some (19/10), some 1, some (6/5)⟩),
  (133, 139, ⟨"", "", .float 416 417, some (5/2), some (5/2), some (5/2), some (5/2)⟩),
  (84, 121, ⟨"", "", .nan, some (3/5), some (4/5), some (4/5), some (4/5)⟩),
  (130, 76, ⟨"", "", .nan, some (3/5), some (4/5), some (3/5), some (4/5)⟩),
  (121, 1, ⟨"", "", .float 5 8, some (7/10), some (4/5), some 1, some 2⟩),
  (121, 2, ⟨"", "", .float 5 8, some (6/5), some (13/10), some 1, some 2⟩),
  (121, 3, ⟨"", "", .textTuple [5, 8, 9], some (7/10), some 1, some 1, some 2⟩),
  (121, 4, ⟨"", "", .textTuple [5, 6, 7], some (6/5), some (13/10), some 1, some 2⟩),
  (76, 2, ⟨"", "", .textTuple [9, 7, 6], some (6/5), some (13/10), some (1/2), some (3/2)⟩),
  (76, 3, ⟨"", "", .textTuple [9, 7, 6], some (6/5), some (13/10), some 1, some 2⟩),
  (76, 4, ⟨"", "", .float 7 6, some (6/5), some (13/10), some 1, some 2⟩),
  (139, 132, ⟨"", "", .nan, some (5/2), some (5/2), some (5/2), some (5/2)⟩),
  (132, 42, ⟨"", "", .textInt 1, some (5/2), some (5/2), some (5/2), some (5/2)⟩),
  (42, 47, ⟨"", "", .float 25 26, some (3/2), some (3/2), some (3/2), some (3/2)⟩),
  (1, 77, ⟨"", "", .float 16 2, some (7/10), some (17/10), some (9/10), some (9/10)⟩)]

/-- `/repo/data/network_paths.ods`, part 3 -/
def table3 : List (Nat × Nat × PathRow) := [
  (1, 125, ⟨"", "", .float 16 19, some (6/5), some (11/5), some (7/5), some (7/5)⟩),
  (2, 77, ⟨"", "", .textTuple [17, 20], some (6/5), some (11/5), some (7/5), some (7/5)⟩),
  (2, 125, ⟨"", "", .textTuple [17, 19], some (7/10), some (17/10), some (9/10), some (9/10)⟩),
  (3, 97, ⟨"", "", .textTuple [12, 14], some (6/5), some (11/5), some (5/2), some (5/2)⟩),
  (3, 98, ⟨"", "", .textTuple [12, 15], some (17/10), some (27/10), some 3, some 3⟩),
  (3, 77, ⟨"", "", .textTuple [12, 14, 17, 20], some (17/10), some (27/10), some (7/5), some (7/5)⟩),
  (3, 125, ⟨"", "", .textTuple [12, 14, 17, 19], some (17/10), some (27/10), some (7/5), some (7/5)⟩),
  (4, 98, ⟨"", "", .textTuple [11, 15], some (6/5), some (11/5), some (5/2), some (5/2)⟩),
  (4, 97, ⟨"", "", .textTuple [14, 11], some (17/10), some (27/10), some 3, some 3⟩),
  (4, 77, ⟨"", "", .textTuple [11, 14, 17, 20], some (17/10), some (27/10), some (7/5), some (7/5)⟩),
  (4, 125, ⟨"", "", .textTuple [11, 14, 17, 19], some (17/10), some (27/10), some (7/5), some (7/5)⟩),
  (47, 97, ⟨"", "", .textTuple [10, 11, 14], some 3, some 3, some 3, some 3⟩),
  (47, 98, ⟨"", "", .textTuple [10, 11, 15], some 3, some 3, some 3, some 3⟩),
  (47, 77, ⟨"", "", .textTuple [10, 11, 14, 17, 20], some 3, some 3, some (7/5), some (7/5)⟩),
  (47, 125, ⟨"", "", .textTuple [10, 11, 14, 17, 19], some 3, some 3, some (7/5), some (7/5)⟩),
  (97, 5, ⟨"", "", .textTuple [1, 9], some (12/5), some (12/5), some (3/2), some (3/2)⟩),
  (97, 6, ⟨"", "", .textTuple [1, 2, 16], some (12/5), some (12/5), some 2, some 2⟩),
  (98, 5, ⟨"", "", .textTuple [2, 16, 9], some (12/5), some (12/5), some 2, some 2⟩),
  (98, 6, ⟨"", "", .textTuple [2, 16], some (12/5), some (12/5), some (3/2), some (3/2)⟩),
  (5, 99, ⟨"", "", .textInt 59, some (11/5), some (11/5), some (7/2), some (7/2)⟩),
  (6, 99, ⟨"", "", .textTuple [58, 59], some (11/5), some (11/5), some (7/2), some (7/2)⟩),
  (6, 100, ⟨"", "", .textInt 58, some (11/5), some (11/5), some (7/2), some (7/2)⟩),
  (77, 144, ⟨"", "", .nan, some (11/10), some (3/2), some (7/10), some (17/10)⟩),
  (125, 145, ⟨"", "", .nan, some (11/10), some (3/2), some (7/10), some (17/10)⟩),
  (144, 119, ⟨"", "", .nan, some (9/10), some (7/5), some (11/10), some (11/10)⟩),
  (145, 85, ⟨"", "", .nan, some (9/10), some (7/5), some (11/10), some (11/10)⟩),
  (119, 40, ⟨"", "", .textInt 107, some (4/5), some (4/5), some (3/5), some (8/5)⟩),
  (85, 40, ⟨"", "", .textTuple [106, 107], some (4/5), some (4/5), some (11/10), some (21/10)⟩),
  (85, 41, ⟨"", "", .textInt 106, some (13/10), some (13/10), some (3/5), some (8/5)⟩),
  (40, 86, ⟨"", "", .textTuple [161, 164], some (7/10), some (7/5), some (11/10), some (11/10)⟩),
  (40, 128, ⟨"", "", .textTuple [161, 164, 165], some (6/5), some (19/10), some (8/5), some (8/5)⟩),
  (41, 86, ⟨"", "", .textTuple [160, 161, 164], some (6/5), some (19/10), some (8/5), some (8/5)⟩),
  (41, 128, ⟨"", "", .textTuple [160, 165], some (7/10), some (7/5), some (11/10), some (11/10)⟩),
  (86, 142, ⟨"", "", .nan, some (13/10), some (13/10), some (9/10), some (19/10)⟩),
  (128, 143, ⟨"", "", .nan, some (13/10), some (13/10), some (9/10), some (19/10)⟩),
  (142, 87, ⟨"", "", .nan, some (7/10), some (13/10), some (1/2), some (1/2)⟩),
  (143, 95, ⟨"", "", .nan, some (7/10), some (13/10), some (1/2), some (1/2)⟩),
  (87, 126, ⟨"", "", .nan, some (7/10), some (7/10), some (23/10), some (23/10)⟩),
  (95, 94, ⟨"", "", .nan, some (7/10), some (7/10), some (23/10), some (23/10)⟩),
  (126, 30, ⟨"", "", .textTuple [18, 23], some (9/10), some (9/10), some 2, some 2⟩),
  (126, 31, ⟨"", "", .textTuple [18, 23, 24], some (7/5), some (7/5), some 2, some 2⟩),
  (94, 30, ⟨"", "", .textTuple [23, 18, 17], some (7/5), some (7/5), some 2, some 2⟩),
  (94, 31, ⟨"", "", .textTuple [24, 17], some (9/10), some (9/10), some 2, some 2⟩),
  (30, 90, ⟨"", "", .textTuple [47, 48], some (3/2), some (3/2), some (6/5), some (6/5)⟩),
  (30, 120, ⟨"", "", .textTuple [47, 48, 49], some 2, some 2, some (6/5), some (6/5)⟩),
  (31, 90, ⟨"", "", .textTuple [48, 47, 46], some 2, some 2, some (6/5), some (6/5)⟩),
  (31, 120, ⟨"", "", .textTuple [46, 49], some (3/2), some (3/2), some (6/5), some (6/5)⟩),
  (90, 91, ⟨"", "", .nan, some (13/10), some (13/10), some (4/5), some (4/5)⟩),
  (120, 81, ⟨"", "", .nan, some (13/10), some (13/10), some (4/5), some (4/5)⟩),
  (91, 92, ⟨"", "", .nan, some (9/10), some (9/10), some (3/5), some (3/5)⟩),
  (81, 80, ⟨"", "", .nan, some (9/10), some (9/10), some (3/5), some (3/5)⟩),
  (92, 93, ⟨"", "", .nan, some (1/2), some (1/2), some (7/10), some (7/10)⟩),
  (80, 79, ⟨"", "", .nan, some (1/2), some (1/2), some (7/10), some (7/10)⟩),
  (93, 127, ⟨"", "", .nan, some (7/10), some (7/10), some (9/5), some (9/5)⟩),
  (79, 78, ⟨"", "", .nan, some (7/10), some (7/10), some (9/5), some (9/5)⟩),
  (127, 35, ⟨"", "", .textTuple [31, 33, 41], some 2, some 2, some 2, some 2⟩),
  (127, 36, ⟨"", "", .textTuple [31, 33], some 2, some 2, some 2, some 2⟩),
  (127, 37, ⟨"", "", .textTuple [31, 34], some 2, some 2, some 2, some 2⟩),
  (127, 38, ⟨"", "", .textTuple [31, 34, 43], some 2, some 2, some 2, some 2⟩),
  (127, 43, ⟨"", "", .textTuple [31, 34, 43], some 2, some 2, some 2, some 2⟩),
  (78, 32, ⟨"", "", .textTuple [37, 36, 30, 22], some 2, some 2, some 2, some 2⟩),
  (78, 33, ⟨"", "", .textTuple [36, 30, 22], some 2, some 2, some 2, some 2⟩),
  (78, 34, ⟨"", "", .textTuple [30, 22], some 2, some 2, some 2, some 2⟩),
  (78, 35, ⟨"", "", .textTuple [29, 24, 22], some 2, some 2, some 2, some 2⟩),
  (60, 32, ⟨"", "", .textTuple [37, 36, 30, 29], some 2, some 2, some 2, some 2⟩),
  (60, 33, ⟨"", "", .textTuple [36, 30, 29], some 2, some 2, some 2, some 2⟩),
  (60, 34, ⟨"", "", .textTuple [30, 29], some 2, some 2, some 2, some 2⟩),
  (60, 35, ⟨"", "", .textTuple [41, 29], some 2, some 2, some 2, some 2⟩),
  (60, 36, ⟨"", "", .textTuple [27, 28, 32, 33], some 2, some 2, some 2, some 2⟩),
  (60, 37, ⟨"", "", .textTuple [27, 28, 32, 34], some 2, some 2, some 2, some 2⟩),
  (60, 38, ⟨"", "", .textTuple [27, 28, 32, 34, 43], some 2, some 2, some 2, some 2⟩),
  (60, 43, ⟨"", "", .textTuple [27, 28, 32, 34, 43], some 2, some 2, some 2, some 2⟩),
  (32, 113, ⟨"", "", .textTuple [76, 77, 84, 87, 89, 90], some (13/10), some (13/10), some (11/10), some (11/10)⟩),
  (32, 117, ⟨"", "", .textTuple [76, 77, 84, 87, 93], some (13/10), some (13/10), some (11/10), some (11/10)⟩),
  (33, 113, ⟨"", "", .textTuple [76, 77, 84, 87, 89, 90], some (13/10), some (13/10), some (11/10), some (11/10)⟩),
  (33, 117, ⟨"", "", .textTuple [76, 77, 84, 87, 93], some (13/10), some (13/10), some (11/10), some (11/10)⟩),
  (34, 113, ⟨"", "", .textTuple [85, 87, 89, 90], some (13/10), some (13/10), some (11/10), some (11/10)⟩),
  (34, 117, ⟨"", "", .textTuple [85, 87, 93], some (13/10), some (13/10), some (11/10), some (11/10)⟩),
  (35, 113, ⟨"", "", .textTuple [85, 87, 89, 90], some (13/10), some (13/10), some (11/10), some (11/10)⟩),
  (35, 117, ⟨"", "", .textTuple [85, 87, 93], some (13/10), some (13/10), some (11/10), some (11/10)⟩),
  (36, 113, ⟨"", "", .textTuple [86, 89, 90], some (13/10), some (13/10), some (11/10), some (11/10)⟩),
  (36, 117, ⟨"", "", .textTuple [86, 89, 90, 93], some (13/10), some (13/10), some (11/10), some (11/10)⟩),
  (37, 113, ⟨"", "", .textTuple [82, 83, 86, 89, 90], some (13/10), some (13/10), some (11/10), some (11/10)⟩),
  (37, 117, ⟨"", "", .textTuple [82, 83, 86, 89, 90, 93], some (13/10), some (13/10), some (11/10), some (11/10)⟩),
  (38, 113, ⟨"", "", .textTuple [81, 83, 86, 89, 90], some (13/10), some (13/10), some (11/10), some (11/10)⟩),
  (38, 117, ⟨"", "", .textTuple [81, 83, 86, 89, 90, 93], some (13/10), some (13/10), some (11/10), some (11/10)⟩),
  (43, 113, ⟨"", "", .textTuple [81, 83, 86, 89, 90], some (13/10), some (13/10), some (11/10), some (11/10)⟩),
  (43, 117, ⟨"", "", .textTuple [81, 83, 86, 89, 90, 93], some (13/10), some (13/10), some (11/10), some (11/10)⟩),
  (138, 141, ⟨"", "", .nan, some 1, some 1, some (9/10), some (9/10)⟩),
  (141, 96, ⟨"", "", .float 1 2, some (9/10), some (9/10), none, none⟩)]

/-- `/repo/data/network_paths.ods`, part 4 -/
def table4 : List (Nat × Nat × PathRow) := [
  (141, 131, ⟨"", "", .textTuple [1, 2, 3], some (7/5), some (7/5), none, none⟩),
  (141, 65, ⟨"", "", .textTuple [1, 2, 3], none, none, some (7/5), some (7/5)⟩),
  (141, 64, ⟨"", "", .float 1 2, none, none, some (7/5), some (7/5)⟩),
  (115, 96, ⟨"", "", .float 1 2, some (9/10), some (9/10), none, none⟩),
  (115, 131, ⟨"", "", .textTuple [1, 2, 3], some (7/5), some (7/5), none, none⟩),
  (115, 65, ⟨"", "", .textTuple [1, 2, 3], none, none, some (7/5), some (7/5)⟩),
  (115, 64, ⟨"", "", .float 1 2, none, none, some (7/5), some (7/5)⟩),
  (112, 131, ⟨"", "", .int 3, some 1, some 1, none, none⟩),
  (112, 65, ⟨"", "", .int 3, some 1, some 1, some (4/5), some (9/10)⟩),
  (65, 131, ⟨"", "", .nan, some (7/5), some (7/5), some (9/10), some (3/2)⟩),
  (64, 96, ⟨"", "", .nan, none, none, some (7/5), some (19/10)⟩),
  (96, 118, ⟨"", "", .nan, some (8/5), some (13/5), some 1, some 1⟩),
  (131, 82, ⟨"", "", .nan, some 1, some 1, some (8/5), some (7/5)⟩),
  (118, 7, ⟨"", "", .float 9 16, some (9/10), some (9/10), some (8/5), some (7/5)⟩),
  (118, 8, ⟨"", "", .textTuple [9, 16, 15], some (9/10), some (9/10), some 1, some 2⟩),
  (118, 9, ⟨"", "", .textTuple [9, 16, 17], some (9/10), some (9/10), some (8/5), some (7/5)⟩),
  (82, 7, ⟨"", "", .textTuple [16, 9, 8], some (9/10), some (9/10), some 1, some 2⟩),
  (82, 8, ⟨"", "", .float 15 8, some (9/10), some (9/10), some (8/5), some (7/5)⟩),
  (7, 146, ⟨"", "", .textTuple [54, 57, 84, 85], some (11/10), some (21/10), some (7/5), some (12/5)⟩),
  (7, 137, ⟨"", "", .textTuple [54, 57, 84], some (11/10), some (21/10), some (9/10), some (19/10)⟩),
  (7, 116, ⟨"", "", .textTuple [54, 55, 56, 78, 79, 83], some (8/5), some (13/5), some (7/5), some (12/5)⟩),
  (8, 146, ⟨"", "", .textTuple [55, 56, 78, 79, 83, 84, 85], some (11/10), some (21/10), some (7/5), some (12/5)⟩),
  (8, 137, ⟨"", "", .textTuple [55, 56, 78, 79, 83, 84], some (8/5), some (13/5), some (7/5), some (12/5)⟩),
  (8, 116, ⟨"", "", .textTuple [55, 56, 78, 79, 83], some (11/10), some (21/10), some (9/10), some (19/10)⟩),
  (9, 146, ⟨"", "", .textTuple [42, 43, 53, 58, 85], some (11/10), some (21/10), some (7/5), some (12/5)⟩),
  (9, 137, ⟨"", "", .textTuple [42, 43, 53, 54, 57, 84], some (11/10), some (21/10), some (9/10), some (19/10)⟩),
  (9, 116, ⟨"", "", .textTuple [42, 43, 53, 54, 55, 56, 78, 79, 83], some (8/5), some (13/5), some (7/5), some (12/5)⟩),
  (146, 114, ⟨"", "", .nan, some (14/5), some (7/2), some (11/5), some (11/5)⟩),
  (114, 21, ⟨"", "", .textInt 1, some (3/2), some (3/2), some (7/10), some (17/10)⟩),
  (114, 22, ⟨"", "", .textInt 1, some (3/2), some (3/2), some (7/10), some (17/10)⟩),
  (21, 107, ⟨"", "", .textInt 2, some (3/5), some (8/5), some (17/10), some (17/10)⟩),
  (22, 107, ⟨"", "", .textInt 2, some (3/5), some (8/5), some (17/10), some (17/10)⟩),
  (107, 23, ⟨"", "", .textTuple [1, 2], some (7/5), some (19/10), some (12/5), some (12/5)⟩),
  (107, 24, ⟨"", "", .textTuple [1, 11], some (7/5), some (19/10), some (12/5), some (12/5)⟩),
  (23, 110, ⟨"", "", .textTuple [22, 23, 24], some 2, some 2, some (41/10), some (41/10)⟩),
  (24, 110, ⟨"", "", .textInt 24, some 2, some 2, some (41/10), some (41/10)⟩),
  (137, 69, ⟨"", "", .nan, some (19/10), some (29/10), some (3/5), some (3/5)⟩),
  (116, 74, ⟨"", "", .nan, some (19/10), some (29/10), some (3/5), some (3/5)⟩),
  (69, 70, ⟨"", "", .nan, some (3/5), some (3/5), some (1/2), some (4/5)⟩),
  (74, 73, ⟨"", "", .nan, some (3/5), some (3/5), some (1/2), some (4/5)⟩),
  (70, 134, ⟨"", "", .nan, some (1/2), some (1/2), some (3/5), some (8/5)⟩),
  (73, 135, ⟨"", "", .nan, some (1/2), some (1/2), some (3/5), some (8/5)⟩),
  (134, 71, ⟨"", "", .nan, some (3/5), some (8/5), some (3/5), some (3/5)⟩),
  (135, 72, ⟨"", "", .nan, some (3/5), some (8/5), some (3/5), some (3/5)⟩),
  (71, 129, ⟨"", "", .nan, some (2/5), some (7/10), none, none⟩),
  (129, 54, ⟨"", "", .textTuple [4, 7], some (1/2), some (1/2), some (3/5), some (3/5)⟩),
  (129, 55, ⟨"", "", .textTuple [4, 5, 6, 8], some 1, some 1, some (11/10), some (11/10)⟩),
  (129, 56, ⟨"", "", .textTuple [4, 5, 6, 8, 9], some 1, some 1, some (11/10), some (11/10)⟩),
  (72, 54, ⟨"", "", .textTuple [3, 5, 6, 7], some 1, some 1, some (11/10), some (11/10)⟩),
  (72, 55, ⟨"", "", .textTuple [3, 5, 6], some (1/2), some (1/2), some (3/5), some (3/5)⟩),
  (72, 56, ⟨"", "", .textTuple [3, 5, 6, 9], some 1, some 1, some (11/10), some (11/10)⟩),
  (54, 136, ⟨"", "", .nan, some (7/10), some (7/10), some (7/10), some (7/10)⟩),
  (55, 108, ⟨"", "", .nan, some (7/10), some (7/10), some (7/10), some (7/10)⟩),
  (56, 140, ⟨"", "", .nan, some (6/5), some (6/5), some (6/5), some (6/5)⟩),
  (136, 57, ⟨"", "", .nan, some (3/5), some (3/5), some 1, some 1⟩),
  (108, 58, ⟨"", "", .nan, some (3/5), some (3/5), some 1, some 1⟩),
  (140, 59, ⟨"", "", .nan, some 1, some 1, some (3/2), some (3/2)⟩),
  (57, 25, ⟨"", "", .textTuple [2, 3, 14, 16], some (3/5), some (9/10), some 2, some 2⟩),
  (57, 27, ⟨"", "", .textTuple [2, 3, 4, 7, 11, 20, 21, 22], some (11/10), some (7/5), some 2, some 2⟩),
  (57, 29, ⟨"", "", .textTuple [2, 3, 4, 7, 11, 20, 21], some (11/10), some (7/5), some 2, some 2⟩),
  (58, 25, ⟨"", "", .textTuple [112, 1, 2, 3, 14, 16], some (11/10), some (7/5), some 2, some 2⟩),
  (58, 26, ⟨"", "", .textTuple [112, 1, 114, 15], some (3/5), some (9/10), some 2, some 2⟩),
  (58, 27, ⟨"", "", .textTuple [112, 1, 2, 3, 4, 7, 11, 20, 21, 22], some (11/10), some (7/5), some 2, some 2⟩),
  (58, 29, ⟨"", "", .textTuple [112, 1, 2, 3, 4, 7, 11, 20, 21], some (11/10), some (7/5), some 2, some 2⟩),
  (59, 25, ⟨"", "", .textTuple [111, 112, 1, 2, 3, 14, 16], some (11/10), some (7/5), some 2, some 2⟩),
  (59, 26, ⟨"", "", .textTuple [111, 112, 1, 114, 15], some (11/10), some (7/5), some 2, some 2⟩),
  (59, 28, ⟨"", "", .textTuple [111, 113, 117, 24], some (11/10), some (7/5), some 2, some 2⟩),
  (59, 27, ⟨"", "", .textTuple [111, 112, 1, 2, 3, 4, 7, 11, 20, 21, 22], some (11/10), some (7/5), some 2, some 2⟩),
  (59, 29, ⟨"", "", .textTuple [111, 112, 1, 2, 3, 4, 7, 11, 20, 21], some (11/10), some (7/5), some 2, some 2⟩),
  (25, 89, ⟨"", "", .textTuple [45, 49, 53, 103], some 2, some 2, some (3/5), some (3/5)⟩),
  (25, 124, ⟨"", "", .textTuple [45, 49, 50, 102, 55], some 2, some 2, some (11/10), some (11/10)⟩),
  (25, 75, ⟨"", "", .textTuple [45, 49, 50, 51], some 2, some 2, some (7/5), some (7/5)⟩),
  (25, 111, ⟨"", "", .textTuple [45, 46, 47, 48], some 2, some 2, some (19/10), some (19/10)⟩),
  (26, 89, ⟨"", "", .textTuple [46, 50, 102, 103], some 2, some 2, some (11/10), some (11/10)⟩),
  (26, 124, ⟨"", "", .textTuple [46, 50, 102, 55], some 2, some 2, some (3/5), some (3/5)⟩),
  (26, 75, ⟨"", "", .textTuple [46, 50, 51], some 2, some 2, some (19/10), some (19/10)⟩),
  (26, 111, ⟨"", "", .textTuple [46, 47, 48], some 2, some 2, some (7/5), some (7/5)⟩),
  (28, 124, ⟨"", "", .textTuple [31, 47, 51, 54, 55], some 2, some 2, some (11/10), some (11/10)⟩),
  (28, 75, ⟨"", "", .textTuple [31, 47, 51], some 2, some 2, some (19/10), some (19/10)⟩),
  (28, 111, ⟨"", "", .textTuple [31, 47, 48], some 2, some 2, some (19/10), some (19/10)⟩),
  (27, 89, ⟨"", "", .textTuple [40, 41, 44, 45, 49, 53, 103], some 2, some 2, some (11/10), some (11/10)⟩),
  (27, 124, ⟨"", "", .textTuple [40, 41, 44, 45, 49, 50, 102, 55], some 2, some 2, some (11/10), some (11/10)⟩),
  (27, 109, ⟨"", "", .textTuple [40, 42], some 2, some 2, some (5/2), some (5/2)⟩),
  (27, 75, ⟨"", "", .textTuple [40, 41, 44, 45, 49, 50, 51], some 2, some 2, some (19/10), some (19/10)⟩),
  (27, 111, ⟨"", "", .textTuple [40, 41, 44, 45, 46, 47], some 2, some 2, some (19/10), some (19/10)⟩),
  (29, 89, ⟨"", "", .textTuple [37, 40, 41, 44, 45, 49, 53, 103], some 2, some 2, some (11/10), some (11/10)⟩),
  (29, 124, ⟨"", "", .textTuple [37, 40, 41, 44, 45, 49, 50, 102, 55], some 2, some 2, some (11/10), some (11/10)⟩),
  (29, 109, ⟨"", "", .textTuple [37, 40, 42], some 2, some 2, some (5/2), some (5/2)⟩),
  (29, 75, ⟨"", "", .textTuple [37, 40, 41, 44, 45, 49, 50, 51], some 2, some 2, some (19/10), some (19/10)⟩),
  (29, 111, ⟨"", "", .textTuple [37, 40, 41, 44, 45, 46, 47], some 2, some 2, some (19/10), some (19/10)⟩)]

/-- `/repo/data/network_paths.ods` -/
def table : List (Nat × Nat × PathRow) := table1 ++ table2 ++ table3 ++ table4

/-- the network with the stations of `important_stations.npz` -/
def net : CodedNet := ⟨names, st, table⟩

/-- the network with the stations of `important_stations_Gt.npz` -/
def netGt : CodedNet := ⟨names, stgt, table⟩

/-- the network with the stations of `KO_GLC/important_stations_KO_GLC.npz` -/
def netKo : CodedNet := ⟨names, stko, table⟩

/-- the network with the stations of `KO_GLC/important_stations_KO_GLC_R.npz` -/
def netKoR : CodedNet := ⟨names, stkor, table⟩

end Verif.Real
