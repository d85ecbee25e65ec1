import Verif.Model.Table
import Verif.Model.Helpers

/-!
# Model of `data_formatting/data_formatting/utils.py`

Line numbers refer to that file. Not modelled: the deprecated variants reading
`./important_stations.npz` (lines 148-159, 187-230, 342-346); `get_scheduleper_train`,
`get_schedule`, `calc_time_diff`, `get_initial_conditions`, `add_delay` (lines 433-497), which are
the same text as in `scheduling_tools.py` and are modelled there.
-/

namespace Verif

/-! ## Lists -/

/-- A nested list; a leaf is any element that is not a list. -/
inductive Nested (α : Type)
  | leaf (a : α)
  | list (l : List (Nested α))

mutual
/-- `getSizeOfNestedList(listOfElem)`, lines 11-26, on the elements of the list -/
def sizeOfNestedList {α : Type} : List (Nested α) → Nat
  | [] => 0
  | e :: rest => sizeOfNested e + sizeOfNestedList rest
/-- the contribution of one element, lines 21-25 -/
def sizeOfNested {α : Type} : Nested α → Nat
  | .leaf _ => 1
  | .list l => sizeOfNestedList l
end

/-- `" ".join(str(i) for i in l)` for a list of strings -/
def joinSpace : List String → String
  | [] => ""
  | [x] => x
  | x :: y :: rest => x ++ " " ++ joinSpace (y :: rest)

/-- `sublist(l1, l2)`, lines 102-108, for lists of strings: a substring test on the joined texts -/
def sublist (l1 l2 : List String) : Bool := strContains (joinSpace l2) (joinSpace l1)

/-- The `while` loop of `check_common_specific_elements_lists`, lines 38-48, on the remaining
elements of `list1`; `rest = []` after the current element is `i == len(list1) - 1`. -/
def checkCommonGo (list2 : List String) : List String → List String → List (List String) →
    List (List String)
  | [], _, acc => acc
  | x :: rest, short, acc =>
    if x ∈ list2 then
      let short := short ++ [x]
      if sublist short list2 && !rest.isEmpty then checkCommonGo list2 rest short acc
      else checkCommonGo list2 rest [] (acc ++ [short])
    else checkCommonGo list2 rest short acc

/-- `check_common_specific_elements_lists(list1, list2)`, lines 29-49 -/
def checkCommon (list1 list2 : List String) : List (List String) := checkCommonGo list2 list1 [] []

/-- `reverse_dict_of_lists(d)`, lines 52-57 -/
def reverseDictOfLists {K V : Type} [DecidableEq V] (d : Dict K (List V)) : Dict V (List K) :=
  d.foldl (fun acc e =>
    e.2.foldl (fun acc v => Dict.set acc v ((Dict.get? acc v).getD [] ++ [e.1])) acc) []

/-- `flatten(t)`, lines 60-62 -/
def flatten {α : Type} (t : List (List α)) : List α := t.flatMap fun l => l

/-- `common_elements(list1, list2)`, lines 65-67 -/
def commonElements {α : Type} [DecidableEq α] (list1 list2 : List α) : List α :=
  list1.filter fun x => decide (x ∈ list2)

/-- `sub_lists(l, no_single)`, lines 89-98 -/
def subLists {α : Type} (l : List α) (noSingle : Bool) : List (List α) :=
  (List.range (l.length + 1)).flatMap fun i =>
    (List.range i).flatMap fun j =>
      let subsl := (l.take i).drop j
      if noSingle && decide (subsl.length < 2) then [] else [subsl]

/-! ## Stations of trains -/

/-- `get_J(train_dict)`, lines 336-339 -/
def getJ (td : Trains) : List Int := Dict.keys td

/-- `get_Paths(train_dict)`, lines 349-356 -/
def getPaths (td : Trains) : Dict Int (List String) :=
  td.map fun e => (e.1, trainImportantStations e.2.2)

/-- `check_common_station(train_dict, train1, train2)`, lines 111-114 (a `list` of a `set`: the
order is not specified) -/
def checkCommonStation (td : Trains) (t1 t2 : Int) : Py (List String) := do
  let p1 ← Dict.at! (getPaths td) t1
  let p2 ← Dict.at! (getPaths td) t2
  .ok (commonElements p1 p2).dedup

/-- `get_trains_with_same_stations(train_dict)`, lines 117-118 -/
def getTrainsWithSameStations (td : Trains) : Dict String (List Int) :=
  reverseDictOfLists (getPaths td)

/-- `check_common_blocks_elements(train_dict, train1, train2)`, lines 121-126 -/
def checkCommonBlocksElements (td : Trains) (t1 t2 : Int) : Py (List String) := do
  let a ← trainTimeTable td t1
  let b ← trainTimeTable td t2
  .ok (commonElements (a.map (·.path)) (b.map (·.path)))

/-- `get_block_station(block, important_stations)`, lines 130-135 -/
def getBlockStation (block : String) (st : Stations) : Option String :=
  ((st.filter fun e => decide (block ∈ e.2)).map Prod.fst).head?

/-- `blocks_list_4station(timetable, station, important_stations)`, lines 138-145 -/
def blocksList4station (tt : List Row) (station : String) (st : Stations) : Py (List String) :=
  if station ∉ trainImportantStations tt then .ok []
  else do
    let bs ← Dict.at! st station
    .ok (commonElements bs (tt.map (·.path)))

/-- positions (from `k` on) of the rows at one of two stations: `df.loc[mask].index.values`, lines
177-180 -/
def maskIndices (s1 s2 : String) : Nat → List Row → List Nat
  | _, [] => []
  | k, r :: rest =>
    if r.station = some s1 ∨ r.station = some s2 then k :: maskIndices s1 s2 (k + 1) rest
    else maskIndices s1 s2 (k + 1) rest

/-- `get_blocks_b2win_station4train(timetable, station1, station2)`, lines 162-183. The last case
cannot occur: a station of the train has a row (`maskIndices_ne_nil`). -/
def blocksBetween (tt : List Row) (s1 s2 : String) : List String × Option Bool :=
  let sts := trainImportantStations tt
  if s1 ∉ sts then ([], none)
  else if s2 ∉ sts then ([], none)
  else if sts.idxOf s2 < sts.idxOf s1 then ([], some true)
  else
    let ind := maskIndices s1 s2 0 tt
    match ind.head?, ind.getLast? with
    | some a, some b => (((tt.map (·.path)).take b).drop (a + 1), some false)
    | _, _ => ([], some false)

/-- one iteration of the loop of `get_common_blocks_and_direction_b2win_trains`, lines 240-247 -/
def blocksEitherWay (tt : List Row) (s1 s2 : String) : List String × Option Bool :=
  let p := blocksBetween tt s1 s2
  if p.2 = some true then ((blocksBetween tt s2 s1).1, p.2) else p

/-- `get_common_blocks_and_direction_b2win_trains(…)`, lines 235-256; `true` stands for the
direction `"same"`. If the two trains are equal the dictionary `blocks_order` has one key, which
makes no difference. -/
def commonBlocksAndDirection (td : Trains) (t1 t2 : Int) (s1 s2 : String) :
    Py (List String × Bool) := do
  let a ← Dict.at! td t1
  let b ← Dict.at! td t2
  let p := blocksEitherWay a.2 s1 s2
  let q := blocksEitherWay b.2 s1 s2
  .ok (flatten (checkCommon p.1 q.1), decide (p.2 = q.2))

/-- `common_path(timetable1, timetable2, station1, station2)`, lines 259-269 -/
def commonPath (tt1 tt2 : List Row) (s1 s2 : String) : List String :=
  let b1 := (blocksBetween tt1 s1 s2).1
  let b2 := (blocksBetween tt2 s1 s2).1
  if b1 = b2 then b1 else flatten (checkCommon b1 b2)

/-- `is_train_passing_thru_station(timetable, station)`, lines 272-274 -/
def isTrainPassingThruStation (tt : List Row) (station : String) : Bool :=
  decide (station ∈ trainImportantStations tt)

/-- `subsequent_station(timetable, station)`, lines 278-287 -/
def nextStation (tt : List Row) (station : String) : Option String :=
  let sts := trainImportantStations tt
  if station ∉ sts then none
  else if sts.idxOf station = sts.length - 1 then none
  else sts[sts.idxOf station + 1]?

/-- `subsequent_block(time_table_blocks, block)`, lines 290-300 -/
def subsequentBlock (blocks : List String) (block : String) : Py (Option String) :=
  if block ∉ blocks then .error .assertionError
  else if blocks.idxOf block = blocks.length - 1 then .ok none
  else do
    let b ← nth blocks (blocks.idxOf block + 1)
    .ok (some b)

/-- `get_block_speed(time_table, block)`, lines 303-304 -/
def getBlockSpeed (tt : List Row) (block : String) : Py (Option String) := do
  let r ← nth (tt.filter fun r => decide (r.path = block)) 0
  .ok r.speed

/-- `trains_infor[train][1]["path"].isin(important_stations[station])`, lines 317-319 -/
def atStation (tt : List Row) (bs : List String) : List Bool := tt.map fun r => decide (r.path ∈ bs)

/-- the condition of `get_trains_at_station`, lines 315-332. `tolist()[-1]` is evaluated only when
some block is at the station, so the list is not empty. -/
def isAtStation (onlyDeparture : Bool) (tt : List Row) (bs : List String) : Bool :=
  if onlyDeparture = false then (atStation tt bs).any id
  else (atStation tt bs).any id && !((atStation tt bs).getLast? = some true)

/-- `get_trains_at_station(trains_infor, important_stations, only_departue)`, lines 307-333 -/
def getTrainsAtStation (td : Trains) (st : Stations) (onlyDeparture : Bool) :
    Dict String (List Int) :=
  st.map fun e => (e.1, (td.filter fun t => isAtStation onlyDeparture t.2.2 e.2).map Prod.fst)

/-! ## Times -/

/-- `get_passing_time_block(block, timetable)`, lines 424-430 (with `r=None`, as it is always
called): an empty cell counts as 0 -/
def getPassingTimeBlock (block : String) (tt : List Row) : Py ℚ := do
  let r ← nth (tt.filter fun r => decide (r.path = block)) 0
  .ok (r.passingTime.getD 0)

/-- `minimal_passing_time(timetable, station1, station2, resolution)`, lines 359-368. The assertion
of line 360 reads `station1 and (station2 in …)`. -/
def minimalPassingTime (tt : List Row) (s1 s2 : String) (r : Int) : Py ℚ :=
  if ¬ (s1 ≠ "" ∧ s2 ∈ trainImportantStations tt) then .error .assertionError
  else do
    let ts ← mapPy (fun b => getPassingTimeBlock b tt) (blocksBetween tt s1 s2).1
    .ok (roundIf r ts.sum)

/-- `get_indexes(time_table, st_block[0])[0][0]` and `iloc` of that row: the column `path` is the
first one, so this is the first row with the block (lines 71-85 and 373-374, 391-393) -/
def firstRow (tt : List Row) (block : String) : Py Row :=
  nth (tt.filter fun r => decide (r.path = block)) 0

/-- `turn_around_time(time_table, station, important_stations, r)`, lines 371-379 -/
def turnAroundTime (tt : List Row) (station : String) (st : Stations) (r : Int) : Py ℚ := do
  let bs ← blocksList4station tt station st
  let b ← nth bs 0
  let row ← firstRow tt b
  .ok (roundIf r (row.turnaround.getD 0))

/-- `minimal_stay(train, station, train_dict, important_stations, first_station, r)`, lines
384-403 -/
def minimalStayTime (train : Int) (station : String) (tt : List Row) (st : Stations)
    (firstStation : Bool) (r : Int) : Py (ℚ × Dict String ℚ) := do
  let bs ← blocksList4station tt station st
  let b ← nth bs 0
  let row ← firstRow tt b
  let ts ← mapPy (fun b => getPassingTimeBlock b tt) bs
  match row.turnaround with
  | some ta =>
    if firstStation then
      .ok (roundIf r (ts.sum + 0), [(key2 (.int train) (.str station), ta)])
    else .ok (roundIf r (ts.sum + ta), [])
  | .none => .ok (roundIf r ts.sum, [])

/-- `get_path_type_colunm(path_type, block_dir)`, lines 407-421, together with the access to that
column; `ab` stands for `block_dir == "previous_block"`. -/
def pathTime (speed : Option String) (ab : Bool) (r : PathRow) : Py (Option ℚ) :=
  if speed = some "R" then .ok (if ab then r.rAB else r.rBA)
  else if speed = some "IC" then .ok (if ab then r.icAB else r.icBA)
  else .error .systemExit

/-- `get_skip_stations(train_dict)`, lines 500-507: the last cell of the last row of a timetable
(column `important_station`) -/
def getSkipStations (td : Trains) : Py (Dict Int String) :=
  collect td fun e =>
    match e.2.2.getLast? with
    | .none => .error .indexError
    | some r => .ok (match r.station with
      | some s => [(e.1, s)]
      | .none => [])

end Verif
