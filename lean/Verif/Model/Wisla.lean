import Verif.Model.Linear

/-!
# The problem of `/repo/wisla_problems.py`

The data are literals in the script; line numbers refer to it.
-/

namespace Verif.Wisla

/-- trains -/
abbrev ks1 : Val := .str "Ks1"
abbrev ks2 : Val := .str "Ks2"
abbrev ks3 : Val := .str "Ks3"
abbrev ks4 : Val := .str "Ks4"
abbrev ic1 : Val := .str "Ic1"
abbrev ic2 : Val := .str "Ic2"

/-- stations -/
abbrev s1 : Val := .int 1
abbrev s3 : Val := .int 3
abbrev s5 : Val := .int 5
abbrev s10 : Val := .int 10

/-- `train_set`, lines 57-71. In line 63 the braces of `"Jd"` are closed one entry too early: the group
of trains from station 10 to station 5 becomes the value of the key `10` of `train_set` itself, which
no function reads, and is left out here. -/
def ts : TrainSets where
  skipStation := some [(ks1, s10), (ks3, s10), (ic1, s10), (ks2, s1), (ks4, s1), (ic2, s1)]
  paths := [(ks1, [s1, s3, s5, s10]), (ks3, [s1, s3, s5, s10]), (ic1, [s1, s3, s5,
    s10]), (ks2, [s10, s5, s3, s1]), (ks4, [s10, s5, s3, s1]), (ic2, [s10, s5, s3, s1])]
  J := [ks1, ks3, ic1, ks2, ks4, ic2]
  Jd := [(s1, [(s3, [[ks1, ks3, ic1]])]), (s3, [(s1, [[ks2, ks4, ic2]]), (s5, [[ks1,
    ks3, ic1]])]), (s5, [(s3, [[ks2, ks4, ic2]]), (s10, [[ks1, ks3, ic1]])])]
  Josingle := [((s1, s3), [(ks1, ks2), (ks1, ks4), (ks1, ic2), (ks3, ks2), (ks3, ks4),
    (ks3, ic2), (ic1, ks2), (ic1, ks4), (ic1, ic2)]), ((s3, s5), [(ks1, ks2), (ks1, ks4),
    (ks1, ic2), (ks3, ks2), (ks3, ks4), (ks3, ic2), (ic1, ks2), (ic1, ks4), (ic1, ic2)]),
    ((s5, s10), [(ks1, ks2), (ks1, ks4), (ks1, ic2), (ks3, ks2), (ks3, ks4), (ks3, ic2),
    (ic1, ks2), (ic1, ks4), (ic1, ic2)])]
  Jround := [(s10, [(ic1, ic2)])]
  Jtrack := []
  Jswitch := []
  addSwithes := .none

/-- `timetable`, lines 72-92 -/
def tt : Timetable where
  tauPass := [("Ks1_1_3", 4), ("Ks1_3_5", 6), ("Ks1_5_10", 6), ("Ks3_1_3", 4),
    ("Ks3_3_5", 6), ("Ks3_5_10", 6), ("Ic1_1_3", 4), ("Ic1_3_5", 4), ("Ic1_5_10", 5),
    ("Ks2_3_1", 4), ("Ks2_5_3", 6), ("Ks2_10_5", 6), ("Ks4_3_1", 4), ("Ks4_5_3", 6),
    ("Ks4_10_5", 6), ("Ic2_3_1", 4), ("Ic2_5_3", 4), ("Ic2_10_5", 5)]
  tauHeadway := [("Ks1_Ks3_1_3", 2), ("Ks1_Ks3_3_5", 2), ("Ks1_Ks3_5_10", 2),
    ("Ks3_Ks1_1_3", 2), ("Ks3_Ks1_3_5", 2), ("Ks3_Ks1_5_10", 2), ("Ks1_Ic1_1_3", 2),
    ("Ks1_Ic1_3_5", 2), ("Ks1_Ic1_5_10", 2), ("Ks3_Ic1_1_3", 2), ("Ks3_Ic1_3_5", 2),
    ("Ks3_Ic1_5_10", 2), ("Ic1_Ks1_1_3", 2), ("Ic1_Ks1_3_5", 2), ("Ic1_Ks1_5_10", 2),
    ("Ic1_Ks3_1_3", 2), ("Ic1_Ks3_3_5", 2), ("Ic1_Ks3_5_10", 2), ("Ks2_Ks4_3_1", 2),
    ("Ks2_Ks4_5_3", 2), ("Ks2_Ks4_10_5", 2), ("Ks4_Ks2_3_1", 2), ("Ks4_Ks2_5_3", 2),
    ("Ks4_Ks2_10_5", 2), ("Ks2_Ic2_3_1", 2), ("Ks2_Ic2_5_3", 2), ("Ks2_Ic2_10_5", 2),
    ("Ks4_Ic2_3_1", 2), ("Ks4_Ic2_5_3", 2), ("Ks4_Ic2_10_5", 2), ("Ic2_Ks2_3_1", 2),
    ("Ic2_Ks2_5_3", 2), ("Ic2_Ks2_5_10", 2), ("Ic2_Ks4_3_1", 2), ("Ic2_Ks4_5_3", 2),
    ("Ic2_Ks4_10_5", 2)]
  tauStop := [("Ks1_1", 1), ("Ks1_3", 1), ("Ks1_5", 1), ("Ks1_10", 1), ("Ks3_1", 1),
    ("Ks3_3", 1), ("Ks3_5", 1), ("Ks3_10", 1), ("Ic1_1", 1), ("Ic1_3", 1), ("Ic1_5", 1),
    ("Ic1_10", 1), ("Ks2_1", 1), ("Ks2_3", 1), ("Ks2_5", 1), ("Ks2_10", 1), ("Ks4_1", 1),
    ("Ks4_3", 1), ("Ks4_5", 1), ("Ks4_10", 1), ("Ic2_1", 1), ("Ic2_3", 1), ("Ic2_5", 1),
    ("Ic2_10", 1)]
  tauPrep := [("Ic2_10", 20)]
  tauRes := .none
  schedule := some [("Ks1_1", 0), ("Ks3_1", 60), ("Ic1_1", 10), ("Ks2_10", 40), ("Ks4_10",
    100), ("Ic2_10", 95)]
  initialConditions := [("Ks1_1", 0), ("Ks3_1", 60), ("Ic1_1", 30), ("Ks2_10", 40), ("Ks4_10",
    100), ("Ic2_10", 95)]
  penaltyWeights := [("Ks1_5", 9/10), ("Ks3_5", 9/10), ("Ic1_5", 9/10), ("Ks2_3", 1), ("Ks2_5",
    1), ("Ic2_3", 3/2)]

/-- `train_set` as it was meant: with the group of trains from station 10 to station 5 in `Jd`. -/
def tsMeant : TrainSets :=
  { ts with Jd := ts.Jd ++ [(s10, [(s5, [[ks2, ks4, ic2]])])] }

/-- `timetable` as it was meant: in line 81 the key `"Ic2_Ks2_5_10"` should be `"Ic2_Ks2_10_5"`. -/
def ttMeant : Timetable :=
  { tt with tauHeadway := tt.tauHeadway ++ [("Ic2_Ks2_10_5", 2)] }

end Verif.Wisla
