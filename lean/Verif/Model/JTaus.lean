import Verif.Model.Switch

/-!
# Model of `data_formatting/data_formatting/make_J_taus.py`

Line numbers refer to that file.
-/

namespace Verif

/-- `get_trains_pair9(train_dict)`, lines 25-39 -/
def getTrainsPair9 (td : Trains) : List (Int × Int) :=
  (getJ td).flatMap fun t => if t * 10 + 9 ∈ getJ td then [(t, t * 10 + 9)] else []

/-- `train_time_table(train_dict, train)["path"].tolist()` -/
def pathOf (td : Trains) (t : Int) : Py (List String) := do
  let tt ← trainTimeTable td t
  .ok (tt.map (·.path))

/-- `xs[-1]` -/
def last {α : Type} (xs : List α) : Py α :=
  match xs.getLast? with
  | some x => .ok x
  | .none => .error .indexError

/-- Body of the loop of `get_jround`, lines 55-77. The state is `jround` and the local variable
`block`, which keeps its value when neither condition holds, since `sys.exit` is not called in line
70. -/
def jroundStep (td : Trains) (st : Stations)
    (acc : Dict String (List (Int × Int)) × Option String) (pair : Int × Int) :
    Py (Dict String (List (Int × Int)) × Option String) := do
  let p0 ← pathOf td pair.1
  let p1 ← pathOf td pair.2
  let f0 ← nth p0 0
  let l1 ← last p1
  let f1 ← nth p1 0
  let l0 ← last p0
  let r : Option String × (Int × Int) :=
    if f0 = l1 then (some f0, (pair.2, pair.1))
    else if f1 = l0 then (some f1, pair)
    else (acc.2, pair)
  match r.1 with
  | .none => .error .unboundLocal
  | some block => do
    let station ← nth ((st.filter fun e => decide (block ∈ e.2)).map Prod.fst) 0
    .ok (Dict.set acc.1 station ((Dict.get? acc.1 station).getD [] ++ [r.2]), some block)

/-- `get_jround(train_dict, important_stations)`, lines 43-78 -/
def getJround (td : Trains) (st : Stations) : Py (Dict String (List (Int × Int))) := do
  let r ← loop (getTrainsPair9 td) (jroundStep td st) ([], none)
  .ok r.1

/-- `important_trains_and_stations(…)`, lines 137-168 -/
def importantTrainsAndStations (td : Trains) (st : Stations) (imp : Option (List String))
    (onlyDeparture : Bool) : List String × Dict String (List Int) :=
  (match imp with
    | some l => l
    | .none => Dict.keys st,
   getTrainsAtStation td st onlyDeparture)

/-- `josingle_dict_generate(train_dict, j, j_prime, s, s_prime, init_josingle)`, lines 81-111: the
effect on `init_josingle`. The returned value is not used by the caller; for a partly common path
the dictionary is left as it is. -/
def josingleDictGenerate (td : Trains) (j j' : Int) (s s' : String)
    (d : Dict (String × String) (List (Int × Int))) :
    Py (Dict (String × String) (List (Int × Int))) := do
  let a ← Dict.at! td j
  let b ← Dict.at! td j'
  let path := (blocksBetween a.2 s s').1
  let path' := (blocksBetween b.2 s' s).1
  if path.length ≠ 0 ∧ path = path'.reverse then
    .ok (Dict.set d (s, s') ((Dict.get? d (s, s')).getD [] ++ [(j, j')]))
  else .ok d

/-- innermost part of `josingle`, lines 205-211 -/
def josingleInner (td : Trains) (s s' : String) (j : Int)
    (d : Dict (String × String) (List (Int × Int))) (j' : Int) :
    Py (Dict (String × String) (List (Int × Int))) := do
  if j' ≠ j then do
    let e ← Dict.at! td j'
    if nextStation e.2 s' = some s then
      if Dict.has d (s', s) = false then josingleDictGenerate td j j' s s' d else .ok d
    else .ok d
  else .ok d

/-- `josingle(trains_dict, important_stations, imp_stations)`, lines 193-213 -/
def josingle (td : Trains) (st : Stations) (imp : Option (List String)) :
    Py (Dict (String × String) (List (Int × Int))) :=
  let p := importantTrainsAndStations td st imp true
  loop p.1 (fun d s => do
    let js ← Dict.at! p.2 s
    loop js (fun d j => do
      let e ← Dict.at! td j
      match nextStation e.2 s with
      | .none => .ok d
      | some s' =>
        if s' ∈ p.1 then loop js (josingleInner td s s' j) d else .ok d) d) []

/-- `exclusion_list_jtrack()[0]`, line 172 -/
def stationExclusion : List String := ["KO(KS)", "KO(IC)"]

/-- `exclusion_list_jtrack()[1]`, lines 174-178 -/
def blockExclusion : List (List String) :=
  [["\"KO\", \"ST-M\", 1114, \"(N/A)\""], ["\"KO\", \"ST-M\", 1113, \"(N/A)\""],
   ["\"KO\", \"ST-M\", 1118, \"(N/A)\""]]

/-- body of the loop of `jtrack_subroutine`, lines 226-234; the state is `(current_blocks, vs)` -/
def jtrackStep (td : Trains) (st : Stations) (s : String)
    (acc : List (List String) × List (List Int)) (j : Int) :
    Py (List (List String) × List (List Int)) := do
  let e ← Dict.at! td j
  let b ← blocksList4station e.2 s st
  if b ∉ blockExclusion then
    if b ∈ acc.1 then do
      let i := acc.1.idxOf b + 1
      let g ← nth acc.2 i
      .ok (acc.1, acc.2.set i (g ++ [j]))
    else .ok (acc.1 ++ [b], acc.2 ++ [[j]])
  else .ok acc

/-- `jtrack(trains_dict, important_stations, imp_stations)`, lines 237-260, with
`jtrack_dict_generation`, lines 114-134, which drops empty groups. `vs` starts as `[[]]`, so it is
never empty in line 258. -/
def jtrack (td : Trains) (st : Stations) (imp : Option (List String)) :
    Py (Dict String (List (List Int))) := do
  let p := importantTrainsAndStations td st imp false
  let d ← loop p.1 (fun (d : Dict String (List (List Int))) s =>
    if s ∈ stationExclusion then .ok d
    else do
      let js ← Dict.at! p.2 s
      let r ← loop js (jtrackStep td st s) ([], [[]])
      .ok (Dict.set d s r.2)) []
  .ok (d.map fun e => (e.1, e.2.filter fun g => decide (g.length ≠ 0)))

/-- `non_repeating_pair_for_jswitch()`, lines 182-187 -/
def nonRepeatingPair : String × String := ("KO", "KO(STM)")
/-- second result of `non_repeating_pair_for_jswitch()`, line 185 -/
def nonRepeatingSingle : List String := ["KO(IC)", "KO(KS)"]

/-- `bool(a.intersection(b))` -/
def intersects (a b : List Int) : Bool := a.any fun x => decide (x ∈ b)

/-- `make_jswitch_dict(…)`, lines 263-311: the pairs that are appended -/
def makeJswitchDict (ttj ttj' : List Row) (s : String) (j j' : Int)
    (inj inj' outj outj' : List Int) : List (Dict Int String) :=
  let a := nonRepeatingPair.1
  let b := nonRepeatingPair.2
  (if intersects inj inj' then
    if s ≠ b then [[(j, "in"), (j', "in")]]
    else if nextStation ttj a ≠ some s ∧ nextStation ttj' a ≠ some s then
      [[(j, "in"), (j', "in")]]
    else []
  else []) ++
  (if intersects inj outj' then
    if s ≠ b then [[(j, "in"), (j', "out")]]
    else if nextStation ttj a ≠ some s ∧ nextStation ttj' s ≠ some a then
      [[(j, "in"), (j', "out")]]
    else []
  else []) ++
  (if intersects outj inj' then
    if s ≠ b then [[(j, "out"), (j', "in")]]
    else if nextStation ttj s ≠ some a ∧ nextStation ttj' a ≠ some s then
      [[(j, "out"), (j', "in")]]
    else []
  else []) ++
  (if intersects outj outj' then
    if s ≠ b then [[(j, "out"), (j', "out")]]
    else if nextStation ttj s ≠ some a ∧ nextStation ttj' s ≠ some a then
      [[(j, "out"), (j', "out")]]
    else []
  else [])

/-- body of the loop over pairs of `jswitch`, lines 335-361, given the two timetables -/
def jswitchPair (table : List PathRow) (st : Stations) (s : String) (j j' : Int)
    (ttj ttj' : List Row) : Py (List (Dict Int String)) := do
  let bj ← blocksList4station ttj s st
  let bj' ← blocksList4station ttj' s st
  let inj ← zIn table s (trainImportantStations ttj) bj (ttj.map (·.path))
  let outj ← zOut table s (trainImportantStations ttj) bj (ttj.map (·.path))
  let inj' ← zIn table s (trainImportantStations ttj') bj' (ttj'.map (·.path))
  let outj' ← zOut table s (trainImportantStations ttj') bj' (ttj'.map (·.path))
  if s ∉ nonRepeatingSingle then .ok (makeJswitchDict ttj ttj' s j j' inj inj' outj outj')
  else .ok []

/-- `jswitch(train_dict, important_stations, data_switch, imp_stations)`, lines 314-365 -/
def jswitch (td : Trains) (st : Stations) (table : List PathRow) (imp : Option (List String)) :
    Py (Dict String (List (Dict Int String))) :=
  let p := importantTrainsAndStations td st imp false
  loop p.1 (fun (d : Dict String (List (Dict Int String))) s => do
    let js ← Dict.at! p.2 s
    let v ← collect (pairs js) (fun q => do
      let a ← Dict.at! td q.1
      let b ← Dict.at! td q.2
      jswitchPair table st s q.1 q.2 a.2 b.2)
    .ok (Dict.set d s v)) []

/-- the inner `while` loop of `jd`, lines 387-402, on the remaining groups: the changed groups and
the flag `added` -/
def jdInner (td : Trains) (tt : List Row) (j : Int) (s s2 : String) :
    List (List Int) → Bool → Py (List (List Int) × Bool)
  | [], added => .ok ([], added)
  | g :: rest, added => do
    let h ← nth g 0
    let e ← Dict.at! td h
    let check := decide (commonPath tt e.2 s s2 = (blocksBetween tt s s2).1)
    let now := decide (g ≠ []) && check
    let r ← jdInner td tt j s s2 rest (if now then true else added)
    .ok ((if now then g ++ [j] else g) :: r.1, r.2)

/-- the outer `while` loop of `jd`, lines 386-405, with a bound on the number of rounds; one round
is enough (`jdWhile_ok`), so the bound is not reached. -/
def jdWhile (td : Trains) (tt : List Row) (j : Int) (s s2 : String) :
    Nat → List (List Int) → Py (List (List Int))
  | n, gs =>
    if j ∈ flatten gs then .ok gs
    else match n with
      | 0 => .error .recursionError
      | n + 1 => do
        let r ← jdInner td tt j s s2 gs false
        jdWhile td tt j s s2 n (if r.2 = false then r.1 ++ [[j]] else r.1)

/-- body of the loop over trains of `jd`, lines 379-405 -/
def jdStep (td : Trains) (s : String) (d : Dict String (List (List Int))) (j : Int) :
    Py (Dict String (List (List Int))) := do
  let e ← Dict.at! td j
  match nextStation e.2 s with
  | .none => .ok d
  | some s2 => do
    let gs ← jdWhile td e.2 j s s2 2 ((Dict.get? d s2).getD [])
    .ok (Dict.set d s2 gs)

/-- `jd(time_tables_dict, important_stations, imp_stations)`, lines 368-406 -/
def jd (td : Trains) (st : Stations) (imp : Option (List String)) :
    Py (Dict String (Dict String (List (List Int)))) :=
  let p := importantTrainsAndStations td st imp false
  loop p.1 (fun (d : Dict String (Dict String (List (List Int)))) s => do
    let js ← Dict.at! p.2 s
    let r ← loop js (jdStep td s) []
    .ok (Dict.set d s r)) []

/-! ## Times -/

/-- `get_taus_pass(train_dict, r=r)`, lines 412-443, for all trains -/
def getTausPass (td : Trains) (r : Int) : Py (Dict String ℚ) :=
  loop td (fun d e =>
    loop (trainImportantStations e.2.2) (fun d s =>
      match nextStation e.2.2 s with
      | .none => .ok d
      | some s2 => do
        let t ← minimalPassingTime e.2.2 s s2 r
        .ok (Dict.set d (key3 (.int e.1) (.str s) (.str s2)) t)) d) []

/-- state of `get_taus_stop`: `first_station`, `taus_stop`, `taus_prep` -/
structure StopState where
  first : Bool
  stop : Dict String ℚ
  prep : Dict String ℚ

/-- body of the inner loop of `get_taus_stop`, lines 470-488 -/
def tausStopStep (st : Stations) (r : Int) (train : Int) (tt : List Row) (n : Nat)
    (acc : StopState) (x : String × Nat) : Py StopState := do
  let first := if x.2 = 0 then true else acc.first
  let skip ← (if x.2 = n - 1 then do
      let bs ← blocksList4station tt x.1 st
      let b ← nth bs 0
      let nb ← subsequentBlock (tt.map (·.path)) b
      .ok (decide (nb = none))
    else .ok false : Py Bool)
  if skip then .ok { acc with first := first }
  else do
    let m ← minimalStayTime train x.1 tt st first r
    .ok ⟨first, Dict.set acc.stop (key2 (.int train) (.str x.1)) m.1, Dict.update acc.prep m.2⟩

/-- `get_taus_stop(train_dict, important_stations, r=r)`, lines 446-489, for all trains -/
def getTausStop (td : Trains) (st : Stations) (r : Int) : Py (Dict String ℚ × Dict String ℚ) := do
  let a ← loop td (fun acc e =>
    loop (trainImportantStations e.2.2).zipIdx
      (tausStopStep st r e.1 e.2.2 (trainImportantStations e.2.2).length) acc) ⟨false, [], []⟩
  .ok (a.stop, a.prep)

/-- `get_taus_prep(train_dict, important_stations, r)`, lines 492-512 -/
def getTausPrep (td : Trains) (st : Stations) (r : Int) : Py (Dict String ℚ) :=
  loop td (fun d e => do
    let s ← nth (trainImportantStations e.2.2) 0
    let t ← turnAroundTime e.2.2 s st r
    if t ≠ 0 then .ok (Dict.set d (key2 (.int e.1) (.str s)) t) else .ok d) []

/-- `list_of_k1_pairs`, line 519 -/
def k1Pairs : List (String × String) := [("KO(STM)", "KZ"), ("CB", "CM"), ("KTC-CB", "via Gt")]

/-- `k`, lines 541-546 -/
def headwayK (s1 s2 : String) : Nat := if (s1, s2) ∈ k1Pairs ∨ (s2, s1) ∈ k1Pairs then 1 else 2

/-- `t_pass[i]` and `deltas_vec[i]` for all `i` and the maximum, lines 530-554: `t1`, `t2` are the
passing times of the two trains on the common blocks -/
def headwayOf (k : Nat) (t1 t2 : List ℚ) : Option ℚ :=
  ((List.range t1.length).map fun x =>
    ((t1.drop x).take k).sum + ((List.range x).map fun i => t1.getD i 0 - t2.getD i 0).sum).max?

/-- the headway of two trains, lines 527-556 -/
def headwayTime (tt1 tt2 : List Row) (s1 s2 : String) (r : Int) : Py ℚ := do
  let blocks := commonPath tt1 tt2 s1 s2
  let t1 ← mapPy (fun b => getPassingTimeBlock b tt1) blocks
  let t2 ← mapPy (fun b => getPassingTimeBlock b tt2) blocks
  .ok (roundIf r ((headwayOf (headwayK s1 s2) t1 t2).getD 0))

/-- `[a for a in it.product(l, repeat=2) if a[0] != a[1]]`, lines 522-526 -/
def orderedPairs (l : List Int) : List (Int × Int) :=
  (l.flatMap fun a => l.map fun b => (a, b)).filter fun p => decide (p.1 ≠ p.2)

/-- `get_taus_headway(train_dict, important_stations, r)`, lines 515-558 -/
def getTausHeadway (td : Trains) (st : Stations) (r : Int) : Py (Dict String ℚ) := do
  let d ← jd td st none
  loop (Dict.keys st) (fun acc s1 => do
    let g ← Dict.at! d s1
    loop g (fun acc e =>
      loop (orderedPairs (flatten e.2)) (fun acc p => do
        let a ← Dict.at! td p.1
        let b ← Dict.at! td p.2
        let h ← headwayTime a.2 b.2 s1 e.1 r
        .ok (Dict.set acc (key4 (.int p.1) (.int p.2) (.str s1) (.str e.1)) h)) acc) acc) []

end Verif
