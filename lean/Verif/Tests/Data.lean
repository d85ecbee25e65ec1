import Verif.Props.RealData

/-!
# The tests of `data_formatting/test`, run on the model

The tests read the sheet `trains_schedules.csv`, the table of stations and the path table, which are
`Real.base`, `Real.st` and `Real.table`. `#guard` evaluates the model with the interpreter; nothing
here is a theorem. The guards compare the model with results that the project asserts.
`pytest.approx` is equality of exact rationals.
-/

namespace Verif.DataTests

/-- `timetable_to_train_dict` and `update_all_timetables` -/
def td : Trains :=
  match buildTimetables (Real.shipped.headD ⟨Real.net, [], ""⟩).sheet Real.net.stationTable
    Real.net.pathTable with
  | .ok t => t
  | .error _ => []

/-- the table of stations -/
def st : Stations := Real.net.stationTable
/-- the path table -/
def paths : List PathRow := Real.net.pathTable

/-- a call gave the value -/
def gives {α : Type} [DecidableEq α] (x : Py α) (v : α) : Bool :=
  match x with
  | .ok a => decide (a = v)
  | .error _ => false

/-- a call gave a dictionary with the given entries -/
def givesAll {α β : Type} [DecidableEq α] [DecidableEq β] (x : Py (Dict α β)) (l : List (α × β)) : Bool :=
  match x with
  | .ok d => l.all fun e => decide (Dict.get? d e.1 = some e.2)
  | .error _ => false

/-- the timetable of a train -/
def rowsOf (t : Int) : List Row :=
  match Dict.get? td t with
  | some e => e.2
  | .none => []

/-! ## `test_Js.py` -/

-- `test_js`, lines 18-34
#guard decide (getTrainsPair9 td = [(42100, 421009), (34319, 343199), (54101, 541019)])
#guard gives (getJround td st) [("KO", [(421009, 42100), (34319, 343199), (54101, 541019)])]

-- `test_josingle`, lines 37-51
#guard gives (josingle td st (some ["CM", "CB"])) []
#guard gives (josingle td st (some ["Mi", "MJ"])) [(("Mi", "MJ"), [(44862, 44717)])]
#guard gives (josingle td st (some ["KL", "MJ", "Mi"]))
  [(("KL", "MJ"), [(44717, 44862)]), (("MJ", "Mi"), [(44717, 44862)])]
#guard gives (josingle td st (some ["GLC", "CB"])) []

-- `test_josingle`, lines 54-90
#guard givesAll (jtrack td st .none)
  [("KZ", [[26103, 14006, 40673, 54101, 40675], [42100, 40150, 41004, 4500, 40628, 4120], [5312,
  64350, 73000], [34319, 94317]]), ("KO", [[94766, 40518, 34319, 343199, 64350, 44862], [26103,
  40673, 94317], [421009, 42100, 54101, 541019, 4500, 40628], [5312, 40150, 73000], [14006, 40477,
  40675], [94611, 94113, 44717, 94717], [41004, 4120]]), ("KO(STM)", [[26103, 14006, 40673,
  40675], [421009, 42100, 5312, 34319, 40150, 54101, 541019, 4500, 40628, 73000, 4120], [41004,
  64350], [94317]]), ("CB", [[26103, 40673, 40675], [5312, 40150, 4500, 40628, 73000], [94317],
  [64350]]), ("GLC", [[26103], [5312], [40150, 40673, 40628, 40675], [4500], [73000]]), ("KL",
  [[94766, 40518, 41004, 44862, 4120], [14006, 94611, 94113, 40477, 94717], [44717]]), ("Mi",
  [[44717], [44862]]), ("MJ", [[44717], [44862]]), ("CM", [[94317], [64350]])]

-- `test_jswitches`, lines 93-169
#guard givesAll (jswitch td st paths (some ["GLC", "MJ", "Mi", "CB", "KO(IC)", "KO(KS)"]))
  [("GLC", [[(26103, "in"), (40673, "in")], [(26103, "in"), (40675, "in")], [(5312, "out"),
  (40150, "out")], [(5312, "out"), (4500, "out")], [(5312, "out"), (40628, "out")], [(5312,
  "out"), (73000, "out")], [(40150, "out"), (4500, "out")], [(40150, "out"), (40628, "out")],
  [(40150, "out"), (73000, "out")], [(40673, "in"), (40675, "in")], [(4500, "out"), (40628,
  "out")], [(4500, "out"), (73000, "out")], [(40628, "out"), (73000, "out")]]), ("MJ", [[(44717,
  "in"), (44862, "out")], [(44717, "out"), (44862, "in")]]), ("Mi", [[(44717, "in"), (44862,
  "out")]]), ("CB", [[(26103, "in"), (40673, "in")], [(26103, "out"), (40673, "out")], [(26103,
  "in"), (94317, "in")], [(26103, "in"), (40675, "in")], [(26103, "out"), (40675, "out")], [(5312,
  "in"), (40150, "in")], [(5312, "out"), (40150, "out")], [(5312, "in"), (4500, "in")], [(5312,
  "out"), (4500, "out")], [(5312, "out"), (94317, "in")], [(5312, "out"), (64350, "out")], [(5312,
  "in"), (40628, "in")], [(5312, "out"), (40628, "out")], [(5312, "in"), (73000, "in")], [(5312,
  "out"), (73000, "out")], [(40150, "in"), (4500, "in")], [(40150, "out"), (4500, "out")],
  [(40150, "out"), (94317, "in")], [(40150, "out"), (64350, "out")], [(40150, "in"), (40628,
  "in")], [(40150, "out"), (40628, "out")], [(40150, "in"), (73000, "in")], [(40150, "out"),
  (73000, "out")], [(40673, "in"), (94317, "in")], [(40673, "in"), (40675, "in")], [(40673,
  "out"), (40675, "out")], [(4500, "out"), (94317, "in")], [(4500, "out"), (64350, "out")],
  [(4500, "in"), (40628, "in")], [(4500, "out"), (40628, "out")], [(4500, "in"), (73000, "in")],
  [(4500, "out"), (73000, "out")], [(94317, "in"), (40628, "out")], [(94317, "in"), (40675,
  "in")], [(94317, "in"), (73000, "out")], [(64350, "out"), (40628, "out")], [(64350, "out"),
  (73000, "out")], [(40628, "in"), (73000, "in")], [(40628, "out"), (73000, "out")]]), ("KO(IC)",
  []), ("KO(KS)", [])]

/-- an entry of `jd` -/
def jdAt (imp : Option (List String)) (s s' : String) : Py (List (List Int)) := do
  let d ← jd td st imp
  let e ← Dict.at! d s
  Dict.at! e s'

-- `test_jd`, lines 172-213
#guard gives (jdAt (some ["GLC", "MJ", "KZ"]) "GLC" "CB") [[5312, 40150, 4500, 40628, 73000]]
#guard gives (jdAt (some ["GLC", "MJ", "KZ"]) "MJ" "KL") [[44862]]
#guard gives (jdAt (some ["GLC", "MJ", "KZ"]) "MJ" "Mi") [[44717]]
#guard gives (jdAt (some ["GLC", "MJ", "KZ"]) "KZ" "KO(STM)") [[26103, 14006, 40673, 54101,
40675], [34319, 94317]]
#guard gives (jdAt .none "KO" "CB") [[26103, 40673, 94317, 40675]]
#guard gives (jdAt .none "KO" "KL") [[14006, 94611, 94113, 40477, 44717, 94717]]
#guard gives (jdAt .none "KO" "KO(STM)") [[94766, 42100, 5312, 40518, 343199, 40150, 41004,
541019, 4500, 64350, 44862, 40628, 73000, 4120]]
#guard gives (jdAt .none "KO(KS)" "KO") [[94611, 94113]]
#guard gives (jdAt .none "KO(STM)" "KO(IC)") [[541019]]
#guard gives (jdAt .none "KO(IC)" "KO(STM)") [[421009]]

/-! ## `test_taus.py` -/

-- lines 26-45
#guard givesAll (getTausPass td 1)
  [("94766_Ty_KL", 8), ("94766_KL_KO", 5), ("94766_KO_KO(STM)", 0), ("26103_KZ_KO(STM)", 1),
  ("26103_KO(STM)_KO", 0), ("26103_KO_CB", 3), ("26103_CB_GLC", 14), ("421009_KO(IC)_KO(STM)", 0),
  ("421009_KO(STM)_KO", 0), ("42100_KO_KO(STM)", 0), ("42100_KO(STM)_KZ", 1)]
-- lines 48-59
#guard givesAll (getTausPass td 0)
  [("94766_Ty_KL", 39/5), ("42100_KO_KO(STM)", 0), ("42100_KO(STM)_KZ", 13/10)]

/-- the first result of `get_taus_stop` -/
def stops (r : Int) : Py (Dict String ℚ) := do .ok (← getTausStop td st r).1

-- lines 62-82
#guard givesAll (stops 1)
  [("94766_Ty", 2), ("94766_KL", 1), ("94766_KO", 3), ("26103_KZ", 1), ("26103_KO(STM)", 2),
  ("26103_KO", 3), ("26103_CB", 2), ("26103_GLC", 1), ("421009_KO(STM)", 2), ("42100_KO", 3),
  ("42100_KO(STM)", 1), ("42100_KZ", 1)]
-- lines 85-96
#guard givesAll (stops 0)
  [("26103_KO(STM)", 17/10), ("421009_KO(STM)", 17/10), ("42100_KO", 3)]
-- lines 99-102
#guard gives (getTausPrep td st 0)
  [("42100_KO", 5), ("343199_KO", 5), ("541019_KO", 5)]
-- lines 105-125
#guard givesAll (getTausHeadway td st 1)
  [("26103_14006_KZ_KO(STM)", 1), ("26103_40673_KZ_KO(STM)", 1), ("26103_54101_KZ_KO(STM)", 1),
  ("26103_40675_KZ_KO(STM)", 1), ("14006_40673_KZ_KO(STM)", 1), ("14006_54101_KZ_KO(STM)", 1),
  ("14006_40675_KZ_KO(STM)", 1), ("94766_40518_Ty_KL", 2), ("40518_94766_Ty_KL", 2),
  ("94766_41004_Ty_KL", 4), ("41004_94766_Ty_KL", 2)]
-- lines 128-143
#guard givesAll (getTausHeadway td st 0)
  [("26103_14006_KZ_KO(STM)", 6/5), ("26103_40673_KZ_KO(STM)", 6/5), ("94766_40518_Ty_KL", 5/2),
  ("40518_94766_Ty_KL", 5/2), ("94766_41004_Ty_KL", 19/5), ("41004_94766_Ty_KL", 17/10)]

/-! ## `test_utils.py` -/

-- `test_helpers`, lines 29-41
#guard decide (commonElements ["a", "b", "c"] ["b", "d", "c"] = ["b", "c"])
#guard decide (commonElements ["a", "b", "c"] ["c", "d", "b"] = ["b", "c"])
#guard decide (flatten [["a", "b"], ["c", "d"]] = ["a", "b", "c", "d"])
#guard sizeOfNestedList [.list [.leaf "a", .leaf "b"], .list [.leaf "c", .leaf "d"]] == 4

/-- the stations are common to the two trains -/
def common (t t' : Int) (l : List String) : Bool :=
  match checkCommonStation td t t' with
  | .ok c => l.all fun s => decide (s ∈ c)
  | .error _ => false

-- `test_helpers4trains_paths`, lines 44-51
#guard common 42100 5312 ["KZ", "KO(STM)", "KO"]

-- `test_trains_path`, lines 54-90
#guard decide (getJ td =
  [94766, 26103, 421009, 42100, 5312, 40518, 34319, 343199, 14006, 94611, 40150, 41004, 94113,
  40673, 54101, 541019, 40477, 4500, 94317, 44717, 64350, 94717, 44862, 40628, 40675, 73000,
  4120])
#guard givesAll (.ok (getPaths td)) [(94766, ["Ty", "KL", "KO", "KO(STM)"]),
  (26103, ["KZ", "KO(STM)", "KO", "CB", "GLC"]), (421009, ["KO(IC)", "KO(STM)", "KO"])]

-- `test_path_reffering_to_stations`, lines 97-146
#guard common 44717 44862 ["KO(STM)", "KO", "MJ", "Mi", "KL"]
#guard decide (blocksBetween (rowsOf 44717) "MJ" "Mi" =
  (["\"MJ-Mi\", \"Sem(odstep)\", 1, \"1\", \"(1)\""], some false))
#guard gives (commonBlocksAndDirection td 44717 44862 "MJ" "Mi")
  (["\"MJ-Mi\", \"Sem(odstep)\", 1, \"1\", \"(1)\""], false)
#guard givesAll (.ok (getTrainsAtStation td st true)) [("Mi", [44717, 44862])]
#guard isTrainPassingThruStation (rowsOf 26103) "KO(STM)"
#guard !isTrainPassingThruStation (rowsOf 26103) "KL"
#guard decide (nextStation (rowsOf 26103) "KO(STM)" = some "KO")
#guard decide (nextStation (rowsOf 26103) "GLC" = .none)
#guard givesAll (.ok (getTrainsAtStation td st false))
  [("CB", [26103, 5312, 40150, 40673, 4500, 94317, 64350, 40628, 40675, 73000])]

/-! ## `test_switch_set.py` -/

/-- `z_in`, as a set -/
def zInIs (t : Int) (s : String) (l : List Int) : Bool :=
  match blocksList4station (rowsOf t) s st with
  | .error _ => false
  | .ok bs =>
    match zIn paths s (trainImportantStations (rowsOf t)) bs ((rowsOf t).map (·.path)) with
    | .ok z => z.all (fun x => decide (x ∈ l)) && l.all fun x => decide (x ∈ z)
    | .error _ => false

/-- `z_out`, as a set -/
def zOutIs (t : Int) (s : String) (l : List Int) : Bool :=
  match blocksList4station (rowsOf t) s st with
  | .error _ => false
  | .ok bs =>
    match zOut paths s (trainImportantStations (rowsOf t)) bs ((rowsOf t).map (·.path)) with
    | .ok z => z.all (fun x => decide (x ∈ l)) && l.all fun x => decide (x ∈ z)
    | .error _ => false

-- `test_sets_of_switches`, lines 18-71
#guard zInIs 44862 "MJ" [2]
#guard zOutIs 44862 "MJ" [1]
#guard zInIs 44717 "MJ" [1]
#guard zOutIs 44717 "MJ" [2]
#guard zInIs 44862 "KL" [78, 79, 83, 84, 85, 55, 56]
#guard zOutIs 44862 "KL" [8, 15]
#guard zOutIs 26103 "KZ" [53, 47]
#guard zInIs 26103 "KO(STM)" [18, 5]
#guard zOutIs 26103 "KO(STM)" [55, 54, 39]
#guard zInIs 26103 "KO" [55, 54, 39]

/-! ## `test_scheduling_funcs.py` -/

-- lines 31-45
#guard givesAll (getSchedule td "16:00")
  [("94766_Ty", -13), ("94766_KL", -3), ("26103_KO", 11), ("26103_CB", 17), ("26103_GLC", 36),
  ("42100_KO", 8), ("41004_Ty", 1)]
-- lines 48-63
#guard givesAll (getInitialConditions td "16:00")
  [("94766_Ty", -13), ("26103_KZ", 0), ("421009_KO(IC)", -10), ("42100_KO", 8), ("5312_GLC", -18),
  ("40518_Ty", -9), ("54101_KZ", 24), ("541019_KO", 28)]
-- lines 66-84
#guard givesAll (do .ok (addDelay (addDelay (← getInitialConditions td "16:00") 94766 20) 42100 10))
  [("94766_Ty", 7), ("26103_KZ", 0), ("421009_KO(IC)", -10), ("42100_KO", 18), ("5312_GLC", -18),
  ("40518_Ty", -9)]
-- lines 87-139
#guard givesAll (makeWeights td
    [(94766, "KO(STM)"), (421009, "KO"), (40518, "KO(STM)"), (34319, "KO"), (343199, "KO(STM)"),
    (40673, "GLC"), (54101, "KO"), (541019, "KO(IC)"), (44862, "KO(STM)"), (40675, "GLC")]
    1 (3/2) (7/4) 0)
  [("94766_KO", 1), ("26103_GLC", 3/2), ("421009_KO(STM)", 0), ("42100_KZ", 3/2), ("5312_KZ",
  3/2), ("40518_KO", 1), ("34319_KO(STM)", 1), ("343199_KO", 0), ("14006_Ty", 3/2), ("94611_Ty",
  1), ("40150_KZ", 1), ("41004_KZ", 3/2), ("94113_Ty", 1), ("40673_CB", 1), ("54101_KO(STM)",
  3/2), ("541019_KO(STM)", 0), ("40477_Ty", 1), ("4500_KZ", 7/4), ("94317_CM", 1), ("44717_Mi",
  1), ("64350_KZ", 1), ("94717_Ty", 1), ("44862_KO", 1), ("40628_KZ", 1), ("40675_CB", 1),
  ("73000_KZ", 3/2), ("4120_KZ", 3/2)]

/-! ## `test_skip_station.py` -/

-- lines 23-40
#guard givesAll (getSkipStations td)
  [(94766, "KO(STM)"), (421009, "KO"), (40518, "KO(STM)"), (34319, "KO"), (343199, "KO(STM)"),
  (40673, "GLC"), (54101, "KO"), (541019, "KO(IC)"), (44862, "KO(STM)"), (40675, "GLC")]

/-! ## `test_timetable_check.py` -/

-- `test_timetables`, lines 22-56
#guard decide ((Dict.get? td 42100).map Prod.fst =
  some ["IC - IC", "SZTYGAR", "from Katowice", "to Lublin Główny"])
#guard decide (((rowsOf 42100).take 3).map (·.speed) = [some "IC", some "IC", some "IC"])
#guard decide ((rowsOf 42100).head?.bind (·.dep) = some "16:08")
#guard decide (((getArrDepVals (rowsOf 42100))[0]?.map fun v => v.2.1) = some (some "16:08"))
#guard decide (((getArrDepVals (rowsOf 42100))[1]?.map fun v => v.2.2) = some (some "16:12"))

-- `test_trains_paths`, lines 59-67
#guard decide (trainImportantStations (rowsOf 42100) = ["KO", "KO(STM)", "KZ"])
#guard gives (checkPathContinuity paths ((rowsOf 42100).map (·.path))) ()

end Verif.DataTests
