import Verif.Py
import Mathlib.Data.Rat.Floor

/-!
# Tables and model of `data_formatting/data_formatting/time_table_check.py`

A pandas table is the list of its rows; an empty cell (NaN) is `none`. Numbers are exact
rationals. Line numbers refer to that file unless another one is named.
-/

namespace Verif

/-- A row of the train sheet (`pd.read_csv`, `/repo/helpers.py` line 50), columns `Unnamed: 0`
(renamed to `path` inside a train section), `speed`, `Arr`, `Dep`, `Approx_enter`, `Label`,
`Shunting`, `Turnaround_time_minutes`. Simplification: the first column has no empty cells. -/
structure RawRow where
  path : String
  speed : Option String := none
  arr : Option String := none
  dep : Option String := none
  approxEnter : Option String := none
  label : Option String := none
  shunting : Option String := none
  turnaround : Option ℚ := none
  deriving DecidableEq

/-- A row of a train's timetable after `update_all_timetables` (`new_time_tables.py`, lines 62-72):
the columns `passing_time` and `important_station` are added, in this order, at the end. -/
structure Row extends RawRow where
  passingTime : Option ℚ := none
  station : Option String := none
  deriving DecidableEq

/-- The value of `train_dict[train]`: `[info, timetable]`. -/
abbrev Entry (R : Type) := List String × List R
/-- `train_dict` after `update_all_timetables`; trains are `int`s (line 21). -/
abbrev Trains := Dict Int (Entry Row)
/-- `important_stations`: station name to the list of its blocks. -/
abbrev Stations := Dict String (List String)

/-- The content of a cell of the column `switches`: a `float` (written as its decimal digits, no
leading zeros in the fraction), an empty cell, an `int`, or a text, for which the model carries the
result of `eval`: an `int`, a tuple, or an exception. -/
inductive SwitchCell
  | float (whole frac : Nat)
  | nan
  | int (n : Int)
  | textInt (n : Int)
  | textTuple (l : List Int)
  | textBad (e : PyErr)
  deriving DecidableEq

/-- A row of the path table (`/repo/data/network_paths.ods`). The columns `direction`,
`default_A-B` and `default_B-A` are not read by the modelled code. -/
structure PathRow where
  prev : String
  next : String
  switches : SwitchCell := .nan
  /-- `time_inter_city_A-B` -/
  icAB : Option ℚ := none
  /-- `time_regional_train_A-B` -/
  rAB : Option ℚ := none
  /-- `time_inter_city_B-A` -/
  icBA : Option ℚ := none
  /-- `time_regional_train_B-A` -/
  rBA : Option ℚ := none
  deriving DecidableEq

/-! ## Python helpers -/

/-- `s.isnumeric()`. Simplification: only the digits `0`-`9` are numeric characters. -/
def isNumeric (s : String) : Bool := !s.toList.isEmpty && s.toList.all (fun c => c.isDigit)

/-- value of a list of decimal digits -/
def digitsVal (l : List Char) : Nat := l.foldl (fun acc c => 10 * acc + (c.toNat - 48)) 0

/-- `int(s)` for a numeric string -/
def intOf (s : String) : Int := (digitsVal s.toList : Nat)

/-- `data["Unnamed: 0"][i]` for an integer label: a label out of range raises `KeyError`. -/
def label {α : Type} (xs : List α) (i : Int) : Py α :=
  if i < 0 then .error .keyError
  else match xs[i.toNat]? with
    | some x => .ok x
    | .none => .error .keyError

/-- `round(x)`: to the nearest integer, halves to the even one -/
def pyRound (q : ℚ) : ℤ :=
  if q - (⌊q⌋ : ℤ) < 1 / 2 then ⌊q⌋
  else if 1 / 2 < q - (⌊q⌋ : ℤ) then ⌊q⌋ + 1
  else if ⌊q⌋ % 2 = 0 then ⌊q⌋ else ⌊q⌋ + 1

/-- `if r == 1: x = round(x)` -/
def roundIf (r : Int) (q : ℚ) : ℚ := if r = 1 then (pyRound q : ℚ) else q

/-! ## Reading the sheet -/

/-- the prefixes tested in line 25 -/
def startsSection (s : String) : Bool :=
  decide (String.ofList (s.toList.take 4) = "from" ∨ String.ofList (s.toList.take 4) = "depa")

/-- the prefixes tested in line 29 -/
def endsSection (s : String) : Bool :=
  decide (String.ofList (s.toList.take 2) = "to" ∨ String.ofList (s.toList.take 2) = "te")

/-- The `while` loop of lines 29-31: starting from position `k` (`i + pa`), the first position at
which a section ends; running off the sheet raises `KeyError`. -/
def sectionEnd (col : List String) (k : Nat) : Py Nat :=
  if h : k < col.length then
    if endsSection col[k] then .ok k else sectionEnd col (k + 1)
  else .error .keyError
termination_by col.length - k

/-- Local variables of `timetable_to_train_dict` that survive an iteration: `train` and `info`
(unbound at the start) and `train_dict`. -/
structure ReadState where
  train : Option Int
  info : Option (List String)
  dict : Dict Int (Entry RawRow)

/-- Body of the loop of `timetable_to_train_dict`, lines 18-38. `info += …` changes the list in
place; the only other reference to that list is the entry of the same train, which line 38
overwrites, so the aliasing is not visible. -/
def readStep (data : List RawRow) (st : ReadState) (i : Nat) : Py ReadState := do
  let col := data.map (·.path)
  let c ← label col i
  let st ← (if isNumeric c then do
      let a ← label col (i - 1 : Int)
      let b1 ← label col (i + 1 : Int)
      let b2 ← label col (i + 2 : Int)
      .ok { st with train := some (intOf c), info := some [a, b1, b2] }
    else .ok st : Py ReadState)
  if startsSection c then do
    let k ← sectionEnd col (i + 1)
    let rows := (data.take k).drop (i + 1)
    let e ← label col k
    match st.info, st.train with
    | some info, some t =>
      .ok { train := some t, info := some (info ++ [e])
            dict := Dict.set st.dict t (info ++ [e], rows) }
    | _, _ => .error .unboundLocal
  else .ok st

/-- `timetable_to_train_dict(data)`, lines 8-39 -/
def timetableToTrainDict (data : List RawRow) : Py (Dict Int (Entry RawRow)) := do
  let st ← loop (List.range data.length) (readStep data) ⟨none, none, []⟩
  .ok st.dict

/-- `train_time_table(train_dict, train)`, lines 42-50 -/
def trainTimeTable (td : Trains) (train : Int) : Py (List Row) := do
  let e ← Dict.at! td train
  .ok e.2

/-- `get_arr_dep_vals(time_table)`, lines 64-73, of the columns selected by `get_arrdep`, lines
53-61: rows with at least one of `Arr`, `Dep`, `Approx_enter` -/
def getArrDepVals (tt : List Row) : List (Option String × Option String × Option String) :=
  (tt.map fun r => (r.arr, r.dep, r.approxEnter)).filter
    fun v => v.1.isSome || v.2.1.isSome || v.2.2.isSome

/-- `train_important_stations(time_table)`, lines 76-80 -/
def trainImportantStations (tt : List Row) : List String :=
  tt.filterMap (·.station)

/-- `train_important_stations1(time_table, important_stations)`, lines 83-95 -/
def trainImportantStations1 (tt : List RawRow) (st : Stations) : List String :=
  tt.flatMap fun r => (st.filter fun e => decide (r.path ∈ e.2)).map Prod.fst

/-- One iteration of `check_path_continuity`, lines 105-109; the table is given by its first two
columns. -/
def continuityStep (table : List PathRow) (a b : String) : Py Unit :=
  if table.any (fun r => (r.prev = a || r.prev = b) && (r.next = a || r.next = b)) = false then
    if table.any (fun r => r.prev = a || r.next = a) = false then .error .assertionError
    else if table.any (fun r => r.prev = b || r.next = b) = false then .error .assertionError
    else .ok ()
  else .ok ()

/-- `check_path_continuity(paths, data_path_check)`, lines 98-109 -/
def checkPathContinuity (table : List PathRow) : List String → Py Unit
  | a :: b :: rest => do
    continuityStep table a b
    checkPathContinuity table (b :: rest)
  | _ => .ok ()

end Verif
