import Verif.Model.Sched
import Verif.Model.NewTT
import Verif.Model.Linear

/-!
# Model of `/repo/helpers.py`: from the tables to the input of the optimisation

Line numbers refer to that file. Reading files (lines 39-50) is not modelled.
-/

namespace Verif

/-- `build_timetables(…)`, lines 49-55, after reading the sheet -/
def buildTimetables (data : List RawRow) (st : Stations) (table : List PathRow) : Py Trains := do
  let td ← timetableToTrainDict data
  updateAllTimetables table st td

/-- the dictionary `taus` -/
structure Taus where
  pass : Dict String ℚ
  headway : Dict String ℚ
  prep : Dict String ℚ
  stop : Dict String ℚ
  res : ℚ

/-- `make_taus(train_dict, important_stations, r)`, lines 57-65 -/
def makeTaus (td : Trains) (st : Stations) (r : Int) : Py Taus := do
  let pass ← getTausPass td r
  let headway ← getTausHeadway td st r
  let prep ← getTausPrep td st r
  let sp ← getTausStop td st r
  .ok ⟨pass, headway, Dict.update prep sp.2, sp.1, 1⟩

/-- `make_timetable(train_dict, important_stations, skip_stations, t1, taus)`, lines 67-81, with
`taus` given; called without it, `taus = make_taus(train_dict, important_stations, 1)`. -/
def makeTimetable (td : Trains) (skip : Dict Int String) (t1 : String) (taus : Taus) :
    Py Timetable := do
  let ic ← getInitialConditions td t1
  let pw ← makeWeights td skip 1 (3/2) (7/4) 0
  let sched ← getSchedule td t1
  .ok { tauPass := taus.pass, tauHeadway := taus.headway, tauStop := taus.stop
        tauPrep := taus.prep, tauRes := some taus.res, schedule := some sched
        initialConditions := ic, penaltyWeights := pw }

/-- keys as Python values -/
def intKey (n : Int) : Val := .int n
/-- keys as Python values -/
def strKey (s : String) : Val := .str s

/-- `make_train_set(train_dict, important_stations, data_path, skip_stations)`, lines 83-93. The
dictionaries are the same, with trains (`int`) and stations (`str`) as Python values. -/
def makeTrainSet (td : Trains) (st : Stations) (table : List PathRow) (skip : Dict Int String) :
    Py TrainSets := do
  let d ← jd td st none
  let o ← josingle td st none
  let r ← getJround td st
  let t ← jtrack td st none
  let w ← jswitch td st table none
  .ok { skipStation := some (skip.map fun e => (intKey e.1, strKey e.2))
        paths := (getPaths td).map fun e => (intKey e.1, e.2.map strKey)
        J := (getJ td).map intKey
        Jd := d.map fun e => (strKey e.1, e.2.map fun f => (strKey f.1, f.2.map (·.map intKey)))
        Josingle := o.map fun e =>
          ((strKey e.1.1, strKey e.1.2), e.2.map fun p => (intKey p.1, intKey p.2))
        Jround := r.map fun e => (strKey e.1, e.2.map fun p => (intKey p.1, intKey p.2))
        Jtrack := t.map fun e => (strKey e.1, e.2.map (·.map intKey))
        Jswitch := w.map fun e => (strKey e.1, e.2.map fun x => x.map fun y => (intKey y.1, y.2))
        addSwithes := none }

/-- The input of `create_linear_problem` as the scripts make it (`/repo/solve_real_problem.py`,
lines 116-228; `/repo/solve_KO_GLC_problems.py`, lines 89-167): train sets, timetable, and then a
list of delays `(train, minutes)` added one after the other. The scripts use `r = 1` (rounded
times). -/
def makeInput (td : Trains) (st : Stations) (table : List PathRow) (t1 : String) (r : Int)
    (delays : List (Int × ℚ)) : Py (TrainSets × Timetable) := do
  let skip ← getSkipStations td
  let ts ← makeTrainSet td st table skip
  let taus ← makeTaus td st r
  let tt ← makeTimetable td skip t1 taus
  .ok (ts, { tt with
    initialConditions := delays.foldl (fun ic d => addDelay ic d.1 d.2) tt.initialConditions })

end Verif
