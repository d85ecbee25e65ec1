import Verif.Model.JTaus

/-!
# Model of `data_formatting/data_formatting/scheduling_tools.py`

Line numbers refer to that file.
-/

namespace Verif

/-- a number of one or two digits below `bound`, as accepted by `strptime` for `%H` and `%M` -/
def clockField (l : List Char) (bound : Nat) : Option Nat :=
  if (l.length = 1 ∨ l.length = 2) ∧ l.all (fun c => c.isDigit) = true ∧ digitsVal l < bound then
    some (digitsVal l)
  else none

/-- `datetime.strptime(s, "%H:%M")`, as minutes since midnight; text that does not match raises
`ValueError`. Simplification: only the digits `0`-`9`. -/
def parseClock (s : String) : Py Nat :=
  let l := s.toList
  let h := l.takeWhile (fun c => c ≠ ':')
  match l.drop h.length with
  | [] => .error .valueError
  | _ :: m =>
    match clockField h 24, clockField m 60 with
    | some a, some b => .ok (60 * a + b)
    | _, _ => .error .valueError

/-- `calc_time_diff(t1, t2)`, lines 55-63: the difference of the two times in increasing order,
with a negative sign if `t1 > t2` -/
def calcTimeDiff (t1 t2 : String) : Py ℚ := do
  let a ← parseClock t1
  let b ← parseClock t2
  let time : ℚ := ((max a b : Nat) : ℚ) - ((min a b : Nat) : ℚ)
  .ok (if a > b then time * (-1) else time)

/-- `get_schedule_per_train(timetable)`, lines 10-27 -/
def getSchedulePerTrain (tt : List Row) : Dict String String :=
  let rows := tt.filterMap fun r =>
    match r.station, r.dep with
    | some s, some d => some (s, d)
    | _, _ => none
  rows.foldl (fun d e => Dict.set d e.1 ((Dict.get? rows e.1).getD "")) []

/-- `get_schedule(train_dicts, t1)`, lines 30-52 -/
def getSchedule (td : Trains) (t1 : String) : Py (Dict String ℚ) :=
  loop td (fun d e =>
    loop (getSchedulePerTrain e.2.2) (fun d x => do
      let t ← calcTimeDiff t1 x.2
      .ok (Dict.set d (key2 (.int e.1) (.str x.1)) t)) d) []

/-- `get_initial_conditions(train_dicts, t1)`, lines 66-83: the first row with a station; an empty
cell (filled with 0) counts as missing -/
def getInitialConditions (td : Trains) (t1 : String) : Py (Dict String ℚ) :=
  loop td (fun d e => do
    let row ← nth (e.2.2.filter fun r => r.station.isSome) 0
    let s := row.station.getD ""
    let t2 : Option String := match row.dep with
      | some x => some x
      | .none => row.approxEnter
    let time ← (match t2 with
      | .none => .ok 0
      | some x => calcTimeDiff t1 x : Py ℚ)
    .ok (Dict.set d (key2 (.int e.1) (.str s)) time)) []

/-- `add_delay(initial_conditions, train, delay)`, lines 86-95 -/
def addDelay (ic : Dict String ℚ) (train : Int) (delay : ℚ) : Dict String ℚ :=
  let t := (Val.int train).render ++ "_"
  Dict.update ic ((ic.filter fun e => strContains e.1 t).map fun e => (e.1, e.2 + delay))

/-- `trains_weights`, lines 101-109 -/
def trainsWeights (stopping fast express : ℚ) : Dict String ℚ :=
  [("KS - Os", stopping), ("PR - R", stopping), ("KS - OsP", stopping), ("IC - TLK", fast),
   ("IC - IC", fast), ("IC - EIP", express), ("IC - EIC", express)]

/-- `xs[-k]` for `k = 1, 2` -/
def fromEnd {α : Type} (xs : List α) (k : Nat) : Py α :=
  if k ≤ xs.length then nth xs (xs.length - k) else .error .indexError

/-- body of the loop of `make_weights`, lines 112-121 -/
def weightStep (td : Trains) (skip : Dict Int String) (stopping fast express empty : ℚ)
    (d : Dict String ℚ) (e : Int × Entry Row) : Py (Dict String ℚ) := do
  let ty ← nth e.2.1 0
  let w ← Dict.at! (trainsWeights stopping fast express) ty
  let pairs9 := flatten ((getTrainsPair9 td).map fun p => [p.1, p.2])
  let w := if e.1 / 10 ∈ pairs9 then empty else w
  let s ← fromEnd (trainImportantStations e.2.2) 1
  let s ← (if Dict.get? skip e.1 = some s then fromEnd (trainImportantStations e.2.2) 2
    else .ok s : Py String)
  .ok (Dict.set d (key2 (.int e.1) (.str s)) w)

/-- `make_weights(train_dict, skip_stations, stopping, fast, express, empty)`, lines 98-123.
`//` is floor division: `Int.div` in Lean rounds the same way for the positive divisor 10. -/
def makeWeights (td : Trains) (skip : Dict Int String) (stopping fast express empty : ℚ) :
    Py (Dict String ℚ) :=
  loop td (weightStep td skip stopping fast express empty) []

end Verif
