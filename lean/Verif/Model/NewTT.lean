import Verif.Model.Utils

/-!
# Model of `data_formatting/data_formatting/new_time_tables.py`
-/

namespace Verif

/-- `single_passing_time(block_info, data_paths)`, lines 6-27. `get_indexes(data_check, value1)`
looks through the columns in order, so the direction is `previous_block` if any selected row has
`value1` there; line 25 raises `IndexError` if no cell contains `value1`. -/
def singlePassingTime (table : List PathRow) (v1 v2 : String) (speed : Option String) :
    Py (Option ℚ) :=
  let check := table.filter fun r =>
    decide ((r.prev = v1 ∨ r.prev = v2) ∧ (r.next = v1 ∨ r.next = v2))
  match check with
  | [] => .error .assertionError
  | first :: _ =>
    if check.any (fun r => decide (r.prev = v1)) then pathTime speed true first
    else if check.any (fun r => decide (r.next = v1)) then pathTime speed false first
    else .error .indexError

/-- `passing_times_4blocks(timetable, data_paths)`, lines 30-46 -/
def passingTimes4blocks (table : List PathRow) (tt : List RawRow) : Py (List (Option ℚ)) := do
  let blocks := tt.map (·.path)
  let speed := tt.map (·.speed)
  let ts ← mapPy (fun x => singlePassingTime table x.1 x.2.1 x.2.2)
    (blocks.zip ((blocks.drop 1).zip speed))
  .ok (ts ++ [none])

/-- the body of the loop of `update_all_timetables`, lines 63-71. Simplification: the timetable is
not empty (pandas would add a row to an empty table). -/
def updateTimetable (table : List PathRow) (st : Stations) (tt : List RawRow) : Py (List Row) := do
  let ts ← passingTimes4blocks table tt
  .ok ((tt.zip ts).map fun x =>
    { x.1 with passingTime := x.2, station := getBlockStation x.1.path st })

/-- `update_all_timetables(time_tables_dict, data_paths, important_stations)`, lines 49-75 -/
def updateAllTimetables (table : List PathRow) (st : Stations) (td : Dict Int (Entry RawRow)) :
    Py Trains :=
  mapPy (fun e => do
    let tt ← updateTimetable table st e.2.2
    .ok (e.1, (e.2.1, tt))) td

end Verif
