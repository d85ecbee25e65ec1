import Verif.Py
import Verif.Model.Pulp

/-!
# Model of `railway_solvers/railway_solvers/helpers_functions.py`

Line numbers refer to that file. Numbers are exact rationals.
-/

namespace Verif

/-- The dictionary `train_sets` (built by `/repo/helpers.py:make_train_set`, lines 83-93, and by
the inputs of `railway_solvers/test`).
Simplifications: the keys `Paths`, `J`, `Jd`, `Josingle`, `Jround`, `Jtrack`, `Jswitch` are
present (otherwise every builder raises `KeyError`); the entries of `Josingle` and `Jround` have
length two. -/
structure TrainSets where
  /-- `train_sets["skip_station"]`, may be missing -/
  skipStation : Option (Dict Val Val)
  paths : Dict Val (List Val)
  J : List Val
  Jd : Dict Val (Dict Val (List (List Val)))
  Josingle : Dict (Val × Val) (List (Val × Val))
  Jround : Dict Val (List (Val × Val))
  Jtrack : Dict Val (List (List Val))
  Jswitch : Dict Val (List (Dict Val String))
  /-- `train_sets["add_swithes_at_s"]`, may be missing -/
  addSwithes : Option (List Val)

/-- The dictionary `timetable` (lines 48-60): times `tau`, `schedule` (may be missing),
`initial_conditions`, `penalty_weights`. A missing sub-dictionary of `tau` is the empty one (both
raise `KeyError` on access). -/
structure Timetable where
  tauPass : Dict String ℚ
  tauHeadway : Dict String ℚ
  tauStop : Dict String ℚ
  tauPrep : Dict String ℚ
  tauRes : Option ℚ
  schedule : Option (Dict String ℚ)
  initialConditions : Dict String ℚ
  penaltyWeights : Dict String ℚ

/-- f-string `f"{a}_{b}"` -/
def key2 (a b : Val) : String := a.render ++ "_" ++ b.render
/-- f-string `f"{a}_{b}_{c}"` -/
def key3 (a b c : Val) : String := a.render ++ "_" ++ b.render ++ "_" ++ c.render
/-- f-string `f"{a}_{b}_{c}_{d}"` -/
def key4 (a b c d : Val) : String :=
  a.render ++ "_" ++ b.render ++ "_" ++ c.render ++ "_" ++ d.render

/-- `occurs_as_pair`, lines 4-9 -/
def occursAsPair (a b : Val) (vv : List (List Val)) : Bool :=
  match vv with
  | [] => false
  | v :: rest => if a ∈ v ∧ b ∈ v ∧ a ≠ b then true else occursAsPair a b rest

/-- `previous_station`, lines 36-45; `None` is `Val.none` -/
def previousStation (path : List Val) (s : Val) : Py Val :=
  match index path s with
  | .error e => .error e
  | .ok k => if k = 0 then .ok .none else nth path (k - 1)

/-- `subsequent_station`, lines 28-33 -/
def subsequentStation (path : List Val) (s : Val) : Py Val :=
  match index path s with
  | .error e => .error e
  | .ok k => if k + 1 = path.length then .ok .none else nth path (k + 1)

/-- `tau(timetable, "headway", first_train=j, second_train=jp, first_station=s, second_station=sp)`,
lines 77-80 -/
def tauHeadway (tt : Timetable) (j jp s sp : Val) : Py ℚ := Dict.at! tt.tauHeadway (key4 j jp s sp)

/-- `tau(timetable, "pass", first_train=j, first_station=s, second_station=sp)`, lines 81-83 -/
def tauPass (tt : Timetable) (j s sp : Val) : Py ℚ := Dict.at! tt.tauPass (key3 j s sp)

/-- `tau(timetable, "stop", first_train=j, first_station=s)`, lines 84-85 -/
def tauStop (tt : Timetable) (j s : Val) : Py ℚ := Dict.at! tt.tauStop (key2 j s)

/-- `tau(timetable, "prep", first_train=j, first_station=s)`, lines 86-87 -/
def tauPrep (tt : Timetable) (j s : Val) : Py ℚ := Dict.at! tt.tauPrep (key2 j s)

/-- `tau(timetable, "res")`, lines 88-89 -/
def tauRes (tt : Timetable) : Py ℚ :=
  match tt.tauRes with
  | some r => .ok r
  | .none => .error .keyError

/-- `penalty_weights`, lines 93-100 -/
def penaltyWeights (tt : Timetable) (train station : Val) : ℚ :=
  match Dict.get? tt.penaltyWeights (key2 train station) with
  | some w => w
  | .none => 0

/-- The schedule entry of a train at a station, lines 107-110; `none` stands for `-np.inf`. -/
def schedOf (tt : Timetable) (train station : Val) : Option ℚ :=
  match tt.schedule with
  | some d => Dict.get? d (key2 train station)
  | .none => .none

/-- `np.maximum(sched, x)` with `sched` possibly `-np.inf`, lines 115 and 127 -/
def maxSched (sched : Option ℚ) (x : ℚ) : ℚ :=
  match sched with
  | some t => max t x
  | .none => x

/-- `earliest_dep_time`, lines 103-127, with bounded recursion depth (`n`); the depth running out
is Python's `RecursionError`. -/
def edtFuel (S : Dict Val (List Val)) (tt : Timetable) (train : Val) : Nat → Val → Py ℚ
  | 0, _ => .error .recursionError
  | n + 1, station =>
    match Dict.get? tt.initialConditions (key2 train station) with
    | some u => .ok (maxSched (schedOf tt train station) u)
    | .none => do
      let path ← Dict.at! S train
      let s ← previousStation path station
      let tp ← tauPass tt train s station
      let ts ← tauStop tt train station
      let e ← edtFuel S tt train n s
      .ok (maxSched (schedOf tt train station) (e + tp + ts))

/-- `earliest_dep_time(S, timetable, train, station)`, lines 103-127. Each call goes one station
back, so a depth of path length + 2 is enough (`Verif.Props`: `edt_unfold`). Python's global
recursion limit (1000) is not modelled. -/
def earliestDepTime (S : Dict Val (List Val)) (tt : Timetable) (train station : Val) : Py ℚ :=
  edtFuel S tt train (((Dict.get? S train).getD []).length + 2) station

/-- `not_the_same_rolling_stock`, lines 132-137 -/
def notTheSameRollingStock (j jp : Val) (ts : TrainSets) : Bool :=
  !(ts.Jround.any fun e => occursAsPair j jp (e.2.map fun p => [p.1, p.2]))

/-- `departure_station4switches`, lines 140-149 -/
def departureStation4switches (s j : Val) (place : Dict Val String) (ts : TrainSets) : Py Val := do
  let p ← Dict.at! place j
  if p = "out" then .ok s
  else if p = "in" then do
    let path ← Dict.at! ts.paths j
    previousStation path s
  else .ok .none

/-- `get_M`, lines 152-160 -/
def getM (lhs rhs dmax : ℚ) : ℚ := max (rhs + dmax - lhs) 1

/-- `skip_station`, lines 163-173 -/
def skipStation (j s : Val) (ts : TrainSets) : Bool :=
  match ts.skipStation with
  | .none => false
  | some d =>
    match Dict.get? d j with
    | .none => false
    | some x => if s ≠ x then false else true

/-- first entry of a list of pairs whose second (resp. first) component is `j`; the lookup
`leave_trains.index(j)` of lines 186-189 and 202-205 -/
def firstWith (ps : List (Val × Val)) (f g : Val × Val → Val) (j : Val) : Val :=
  match ps with
  | [] => .none
  | p :: rest => if f p = j then g p else firstWith rest f g j

/-- `previous_train_from_Jround`, lines 177-190 -/
def previousTrainFromJround (ts : TrainSets) (j s : Val) : Val :=
  match Dict.get? ts.Jround s with
  | .none => .none
  | some ps => firstWith ps Prod.snd Prod.fst j

/-- `subsequent_train_at_Jround`, lines 193-206 -/
def subsequentTrainAtJround (ts : TrainSets) (j s : Val) : Val :=
  match Dict.get? ts.Jround s with
  | .none => .none
  | some ps => firstWith ps Prod.fst Prod.snd j

/-- `can_MO_on_line`, lines 210-225 -/
def canMOonLine (j jp s : Val) (ts : TrainSets) : Py Bool := do
  let pj ← Dict.at! ts.paths j
  let sp ← previousStation pj s
  let pjp ← Dict.at! ts.paths jp
  let spp ← previousStation pjp s
  if ts.Jd.isEmpty then .ok false
  else if sp = .none ∨ spp = .none then .ok false
  else if sp ≠ spp then .ok true
  else do
    let d ← Dict.at! ts.Jd sp
    let g ← Dict.at! d s
    if occursAsPair j jp g then .ok false else .ok true

/-- `are_two_trains_entering_via_the_same_switches`, lines 227-235 -/
def enteringViaSameSwitches (ts : TrainSets) (s j jp : Val) : Bool :=
  match Dict.get? ts.Jswitch s with
  | .none => false
  | some v => v.any fun e => decide (Dict.get? e j = some "in" ∧ Dict.get? e jp = some "in")

end Verif
