import Verif.Model.Helpers

/-!
# Model of `railway_solvers/railway_solvers/linear_solver.py`

Line numbers refer to that file. Builders return the list of named constraints that the Python
function adds to `problem` (in order); `createLinearProblem` adds them.
-/

namespace Verif

/-- nested dict `{j : {s : LpVariable}}` -/
abbrev DelayVars := Dict Val (Dict Val LpVar)
/-- nested dict `{a : {b : {c : {d : LpVariable}}}}` -/
abbrev OrderVars := Dict Val (Dict Val (Dict Val (Dict Val LpVar)))

/-! ## `update_dictofdicts` (`helpers_functions.py`, lines 13-25)

The Python function recurses through the nesting levels of a dict with a single element; at each
level: if the key is present update the inner dict, else insert. When the key is present at every
level the recursion reaches two `LpVariable`s and `d2.keys()` raises `AttributeError`. The
assertion of line 18 compares `np.size` of a dict view, which is always 1. -/

/-- one level of the recursion: `inner` is what has to be inserted under `k`, `upd` the recursive
call on an existing inner value -/
def updLevel {V : Type} (upd : V → Py V) (inner : V) (d : Dict Val V) (k : Val) : Py (Dict Val V) :=
  match Dict.get? d k with
  | some v =>
    match upd v with
    | .ok v' => .ok (Dict.set d k v')
    | .error e => .error e
  | .none => .ok (d ++ [(k, inner)])

/-- innermost level: both arguments are variables -/
def updLeaf (_ : LpVar) : Py LpVar := .error .attributeError

/-- `update_dictofdicts(d, {j : {s : v}})` -/
def upd2 (d : DelayVars) (j s : Val) (v : LpVar) : Py DelayVars :=
  updLevel (fun d1 => updLevel updLeaf v d1 s) [(s, v)] d j

/-- `update_dictofdicts(d, {a : {b : {c : {e : v}}}})` -/
def upd4 (d : OrderVars) (a b c e : Val) (v : LpVar) : Py OrderVars :=
  updLevel (fun d1 =>
    updLevel (fun d2 =>
      updLevel (fun d3 => updLevel updLeaf v d3 e) [(e, v)] d2 c)
      [(c, [(e, v)])] d1 b)
    [(b, [(c, [(e, v)])])] d a

/-- `y[a][b][c][d]` -/
def at4 (y : OrderVars) (a b c d : Val) : Py LpVar := do
  let y1 ← Dict.at! y a
  let y2 ← Dict.at! y1 b
  let y3 ← Dict.at! y2 c
  Dict.at! y3 d

/-- the variable stored under `y[a][b][c][d]`, if any -/
def find4 (y : OrderVars) (a b c d : Val) : Option LpVar :=
  (Dict.get? y a).bind fun y1 => (Dict.get? y1 b).bind fun y2 =>
    (Dict.get? y2 c).bind fun y3 => Dict.get? y3 d

/-- the key `"one_station"` -/
def oneStation : Val := .str "one_station"
/-- the key `"in"` -/
def inKey : Val := .str "in"

/-- `check_order_var_4arg`, lines 231-233 -/
def checkOrderVar4arg (y : OrderVars) (j jp s sp : Val) : Bool :=
  match Dict.get? y j with
  | .none => false
  | some y1 => match Dict.get? y1 jp with
    | .none => false
    | some y2 => match Dict.get? y2 s with
      | .none => false
      | some y3 => Dict.has y3 sp

/-- `check_order_var_3arg`, lines 226-228 -/
def checkOrderVar3arg (y : OrderVars) (j jp s : Val) : Bool :=
  checkOrderVar4arg y j jp oneStation s

/-- the variable created by `LpVariable.dicts("y", ([j],[jp],["one_station"],[s]), 0, 1, "Integer")`,
line 144 -/
def yVar (j jp s : Val) : LpVar :=
  ⟨.order j jp oneStation s, sanitize ("y_" ++ key4 j jp oneStation s), 0, 1, .integer⟩

/-- the variable created by `LpVariable.dicts("z", ([a],[b],[c],[d]), 0, 1, "Integer")`,
lines 156-158 and 169-171 -/
def zVar (a b c d : Val) : LpVar :=
  ⟨.order a b c d, sanitize ("z_" ++ key4 a b c d), 0, 1, .integer⟩

/-- `update_y3`, lines 136-145 -/
def updateY3 (y : OrderVars) (j jp s : Val) : Py OrderVars :=
  if checkOrderVar3arg y j jp s || checkOrderVar3arg y jp j s then .ok y
  else upd4 y j jp oneStation s (yVar j jp s)

/-- `update_y4`, lines 149-159 -/
def updateY4 (y : OrderVars) (j jp s sp : Val) : Py OrderVars :=
  if checkOrderVar4arg y j jp s sp || checkOrderVar4arg y jp j sp s then .ok y
  else upd4 y j jp s sp (zVar j jp s sp)

/-- `update_y4_in`, lines 162-172 -/
def updateY4in (y : OrderVars) (a j jp s : Val) : Py OrderVars :=
  if checkOrderVar4arg y a j jp s || checkOrderVar4arg y a jp j s then .ok y
  else upd4 y a j jp s (zVar a j jp s)

/-- `1 - x` for a variable -/
def oneMinus (v : LpVar) : LinExpr := (LinExpr.num 1).sub (.var v)

/-- `get_y3`, lines 174-192 -/
def getY3 (y : OrderVars) (j jp s : Val) : Py LinExpr :=
  if checkOrderVar3arg y j jp s then do .ok (.var (← at4 y j jp oneStation s))
  else do .ok (oneMinus (← at4 y jp j oneStation s))

/-- `get_y4_singleline`, lines 195-214 -/
def getY4singleline (y : OrderVars) (j jp s sp : Val) : Py LinExpr :=
  if checkOrderVar4arg y j jp s sp then do .ok (.var (← at4 y j jp s sp))
  else do .ok (oneMinus (← at4 y jp j sp s))

/-- `get_y4_in`, lines 217-223 -/
def getY4in (y : OrderVars) (a j jp s : Val) : Py LinExpr :=
  if checkOrderVar4arg y a j jp s then do .ok (.var (← at4 y a j jp s))
  else do .ok (oneMinus (← at4 y a jp j s))

/-! ## Order variables, lines 27-132 -/

/-- `order_var4single_line_constrain`, lines 39-51 -/
def orderVar4singleLine (ts : TrainSets) (y : OrderVars) : Py OrderVars :=
  loop ts.Josingle (fun y e => loop e.2 (fun y p => updateY4 y p.1 p.2 e.1.1 e.1.2) y) y

/-- `order_var4minimal_span_constrain`, lines 54-68 -/
def orderVar4minimalSpan (ts : TrainSets) (y : OrderVars) : Py OrderVars :=
  loop ts.Jd (fun y e =>
    loop e.2 (fun y e2 =>
      loop e2.2 (fun y js => loop (pairs js) (fun y p => updateY3 y p.1 p.2 e.1) y) y) y) y

/-- `order_var4track_occuparion_at_stations`, lines 71-86 -/
def orderVar4track (ts : TrainSets) (y : OrderVars) : Py OrderVars :=
  loop ts.Jtrack (fun y e =>
    loop e.2 (fun y js => loop (pairs js) (fun y p => updateY3 y p.1 p.2 e.1) y) y) y

/-- body of the loop of `order_var4switch_occupation`, lines 120-132 -/
def orderVar4switchBody (ts : TrainSets) (s : Val) (y : OrderVars) (pair : Dict Val String) :
    Py OrderVars :=
  match pair with
  | [(jp, _), (jpp, _)] => do
    let sp ← departureStation4switches s jp pair ts
    let spp ← departureStation4switches s jpp pair ts
    if sp = spp then
      if sp ≠ s then do
        let b ← canMOonLine jp jpp s ts
        if b then updateY4in y inKey jp jpp s else updateY3 y jp jpp sp
      else updateY3 y jp jpp sp
    else if s = sp ∨ s = spp then updateY4 y jp jpp sp spp
    else updateY4in y inKey jp jpp s
  | _ => .error .valueError

/-- `order_var4switch_occupation`, lines 89-132 -/
def orderVar4switch (ts : TrainSets) (y : OrderVars) : Py OrderVars :=
  loop ts.Jswitch (fun y e => loop e.2 (orderVar4switchBody ts e.1) y) y

/-- `order_variables`, lines 27-36 -/
def orderVariables (ts : TrainSets) : Py OrderVars := do
  let y ← orderVar4singleLine ts []
  let y ← orderVar4minimalSpan ts y
  let y ← orderVar4track ts y
  orderVar4switch ts y

/-! ## Delay variables, lines 239-255 -/

/-- the variable created by `LpVariable.dicts("Delays", ([j],[s]), 0, d_max, cat)`, lines 249-251 -/
def dVar (j s : Val) (dmax : ℚ) (cat : Cat) : LpVar :=
  ⟨.delay j s, sanitize ("Delays_" ++ key2 j s), 0, dmax, cat⟩

/-- body of the loops, lines 246-253 -/
def delayBody (ts : TrainSets) (dmax : ℚ) (cat : Cat) (j : Val) (d : DelayVars) (s : Val) :
    Py DelayVars :=
  if !skipStation j s ts then
    if subsequentTrainAtJround ts j s = .none then upd2 d j s (dVar j s dmax cat)
    else .ok d
  else .ok d

/-- `delay_varibles`, lines 239-255 -/
def delayVariables (ts : TrainSets) (dmax : ℚ) (cat : Cat) : Py DelayVars :=
  loop ts.J (fun d j => do
    let path ← Dict.at! ts.paths j
    loop path (delayBody ts dmax cat j) d) []

/-- `delay_var[j][s]` -/
def delayAt (d : DelayVars) (j s : Val) : Py LpVar := do
  let d1 ← Dict.at! d j
  Dict.at! d1 s

/-! ## Constraint builders, lines 261-663 -/

/-- `minimal_span_constrain`, lines 261-286 -/
def minimalSpanConstrain (s sp j jp : Val) (tt : Timetable) (dv : DelayVars) (y : OrderVars)
    (ts : TrainSets) (dmax : ℚ) : Py (List Named) := do
  let lhs ← earliestDepTime ts.paths tt jp s
  let e ← earliestDepTime ts.paths tt j s
  let h ← tauHeadway tt j jp s sp
  let rhs := e + h
  let M := getM lhs rhs dmax
  if lhs - dmax < rhs then do
    let dl ← delayAt dv jp s
    let dr ← delayAt dv j s
    let yv ← getY3 y jp j s
    .ok [("minimal_span_" ++ key4 jp j s sp,
      .mkGE ((LinExpr.num lhs).add (.var dl)) (((LinExpr.num rhs).add (.var dr)).sub (.smul M yv)))]
  else .ok []

/-- `minimal_span`, lines 289-324 -/
def minimalSpan (tt : Timetable) (dv : DelayVars) (y : OrderVars) (ts : TrainSets) (dmax : ℚ) :
    Py (List Named) :=
  collect ts.Jd fun e => collect e.2 fun e2 => collect e2.2 fun js => collect (pairs js) fun p => do
    let a ← minimalSpanConstrain e.1 e2.1 p.1 p.2 tt dv y ts dmax
    let b ← minimalSpanConstrain e.1 e2.1 p.2 p.1 tt dv y ts dmax
    .ok (a ++ b)

/-- `single_line_constrain`, lines 327-345 -/
def singleLineConstrain (s sp j jp : Val) (tt : Timetable) (dv : DelayVars) (y : OrderVars)
    (ts : TrainSets) (dmax : ℚ) : Py (List Named) := do
  let lhs ← earliestDepTime ts.paths tt j s
  let e ← earliestDepTime ts.paths tt jp sp
  let p ← tauPass tt jp sp s
  let rhs := e + p
  let M := getM lhs rhs dmax
  if lhs - dmax < rhs then do
    let dl ← delayAt dv j s
    let dr ← delayAt dv jp sp
    let yv ← getY4singleline y j jp s sp
    .ok [("single_line_" ++ key4 j jp s sp,
      .mkGE ((LinExpr.num lhs).add (.var dl)) (((LinExpr.num rhs).add (.var dr)).sub (.smul M yv)))]
  else .ok []

/-- `single_line`, lines 348-366 -/
def singleLine (tt : Timetable) (dv : DelayVars) (y : OrderVars) (ts : TrainSets) (dmax : ℚ) :
    Py (List Named) :=
  collect ts.Josingle fun e => collect e.2 fun p =>
    if notTheSameRollingStock p.1 p.2 ts then do
      let a ← singleLineConstrain e.1.1 e.1.2 p.1 p.2 tt dv y ts dmax
      let b ← singleLineConstrain e.1.2 e.1.1 p.2 p.1 tt dv y ts dmax
      .ok (a ++ b)
    else .ok []

/-- `minimal_stay_constrin`, lines 369-388 -/
def minimalStayConstrain (j s : Val) (tt : Timetable) (dv : DelayVars) (ts : TrainSets) :
    Py (List Named) := do
  let path ← Dict.at! ts.paths j
  let sp ← previousStation path s
  if sp ≠ .none then do
    let dj ← Dict.at! dv j
    match Dict.get? dj s with
    | some d => do
      let lhs ← earliestDepTime ts.paths tt j s
      let dp ← delayAt dv j sp
      let e ← earliestDepTime ts.paths tt j sp
      let p ← tauPass tt j sp s
      let st ← tauStop tt j s
      .ok [("minimal_stay_" ++ key2 j s,
        .mkGE ((LinExpr.var d).add (.num lhs))
          ((((LinExpr.var dp).add (.num e)).add (.num p)).add (.num st)))]
    | .none => .ok []
  else .ok []

/-- `minimal_stay`, lines 391-398 -/
def minimalStay (tt : Timetable) (dv : DelayVars) (ts : TrainSets) : Py (List Named) :=
  collect ts.J fun j => do
    let path ← Dict.at! ts.paths j
    collect path fun s => minimalStayConstrain j s tt dv ts

/-- `keep_trains_order`, lines 404-436 -/
def keepTrainsOrder (s j jp : Val) (y : OrderVars) (ts : TrainSets) : Py (List Named) := do
  let path ← Dict.at! ts.paths j
  let sp ← previousStation path s
  match Dict.get? ts.Jd sp with
  | .none => .ok []
  | some d =>
    if Dict.has d s then do
      let g ← Dict.at! ts.Jtrack s
      if occursAsPair j jp g then do
        let mo ← canMOonLine j jp s ts
        if !mo then do
          let y1 ← Dict.at! y j
          let y2 ← Dict.at! y1 jp
          let y3 ← Dict.at! y2 oneStation
          match Dict.get? y3 s, Dict.get? y3 sp with
          | some a, some b =>
            .ok [("track_occupation_" ++ key4 j jp s sp, .mkEQ (.var a) (.var b))]
          | _, _ => .ok []
        else if enteringViaSameSwitches ts s j jp then do
          let l ← getY4in y inKey j jp s
          let r ← at4 y j jp oneStation s
          .ok [("track_occupation_" ++ key4 j jp s sp, .mkEQ l (.var r))]
        else .ok []
      else .ok []
    else .ok []

/-- arrival of train `jp` at `s` without delays, and the delay variable (train, station) it is
shifted by; `trains_order_at_s`, lines 455-474 -/
def arrivalRef (s jp : Val) (tt : Timetable) (ts : TrainSets) : Py (ℚ × Option (Val × Val)) := do
  let jr := previousTrainFromJround ts jp s
  let path ← Dict.at! ts.paths jp
  let sp ← previousStation path s
  if jr ≠ .none then do
    let pr ← Dict.at! ts.paths jr
    let srp ← previousStation pr s
    let e ← earliestDepTime ts.paths tt jr srp
    let p ← tauPass tt jr srp s
    .ok (e + p, some (jr, srp))
  else if sp ≠ .none then do
    let e ← earliestDepTime ts.paths tt jp sp
    let p ← tauPass tt jp sp s
    .ok (e + p, some (jp, sp))
  else do
    let e ← earliestDepTime ts.paths tt jp s
    .ok (e, .none)

/-- `LHS += delay_var[..][..]` of the arriving train if it has one, lines 484-490 -/
def arrivalExpr (dv : DelayVars) (lhs : ℚ) (ref : Option (Val × Val)) : Py LinExpr :=
  match ref with
  | some (a, b) => do .ok ((LinExpr.num lhs).add (.var (← delayAt dv a b)))
  | .none => .ok (LinExpr.num lhs)

/-- `RHS += tau(timetable, "res")` if `s` is in `add_swithes_at_s`, lines 478-482 -/
def addSwitchRes (s : Val) (tt : Timetable) (ts : TrainSets) : Py ℚ :=
  match ts.addSwithes with
  | .none => .ok 0
  | some l => if s ∈ l then tauRes tt else .ok 0

/-- `trains_order_at_s`, lines 439-497 -/
def trainsOrderAtS (s j jp : Val) (tt : Timetable) (dv : DelayVars) (y : OrderVars)
    (ts : TrainSets) (dmax : ℚ) : Py (List Named) :=
  let jrr := subsequentTrainAtJround ts j s
  if jrr ≠ .none then do
    let l ← getY3 y jp j s
    let r ← getY3 y jp jrr s
    .ok [("track_occupation_" ++ key4 j jp jrr s, .mkEQ l r)]
  else do
    let (lhs, ref) ← arrivalRef s jp tt ts
    let e ← earliestDepTime ts.paths tt j s
    let res ← addSwitchRes s tt ts
    let rhs := e + res
    let M := getM lhs rhs dmax
    if lhs - dmax < rhs then do
      let lhs1 ← arrivalExpr dv lhs ref
      let yv ← getY3 y jp j s
      let dj ← delayAt dv j s
      .ok [("track_occupation_" ++ key3 j jp s ++ "_p",
        .mkGE (lhs1.sub (.var dj)) ((LinExpr.num rhs).sub (.smul M yv)))]
    else .ok []

/-- the value of `skip` in `track_occuparion`, lines 514 and 536:
`"skip_station" in train_sets and jp in train_sets["skip_station"] and
s in train_sets["skip_station"][jp]` — the last `in` is Python's substring test -/
def trackSkip (ts : TrainSets) (s jp : Val) : Py Bool :=
  match ts.skipStation with
  | .none => .ok false
  | some d =>
    match Dict.get? d jp with
    | .none => .ok false
    | some x => pyIn s x

/-- first part of the body of the loops of `track_occuparion`: constraints if `jp` does not skip
`s` -/
def trackOccFirst (s j jp : Val) (tt : Timetable) (dv : DelayVars) (y : OrderVars)
    (ts : TrainSets) (dmax : ℚ) : Py (List Named) := do
  let skip ← trackSkip ts s jp
  if !skip then do
    let k ← keepTrainsOrder s j jp y ts
    let o ← trainsOrderAtS s jp j tt dv y ts dmax
    .ok (k ++ o)
  else .ok []

/-- second part of the body: constraints if `j` does not skip `s` -/
def trackOccSecond (s j jp : Val) (tt : Timetable) (dv : DelayVars) (y : OrderVars)
    (ts : TrainSets) (dmax : ℚ) : Py (List Named) := do
  let skip ← trackSkip ts s j
  if !skip then trainsOrderAtS s j jp tt dv y ts dmax else .ok []

/-- body of the loops of `track_occuparion`, lines 513-548 -/
def trackOccBody (s j jp : Val) (tt : Timetable) (dv : DelayVars) (y : OrderVars)
    (ts : TrainSets) (dmax : ℚ) : Py (List Named) :=
  if notTheSameRollingStock j jp ts then do
    let a ← trackOccFirst s j jp tt dv y ts dmax
    let b ← trackOccSecond s j jp tt dv y ts dmax
    .ok (a ++ b)
  else .ok []

/-- `track_occuparion`, lines 502-548 -/
def trackOccupation (tt : Timetable) (dv : DelayVars) (y : OrderVars) (ts : TrainSets) (dmax : ℚ) :
    Py (List Named) :=
  collect ts.Jtrack fun e => collect e.2 fun js => collect (pairs js) fun p =>
    trackOccBody e.1 p.1 p.2 tt dv y ts dmax

/-- the order variable used by `switch_occ`, lines 580-588 -/
def switchOrderVar (s jp sp jpp spp : Val) (y : OrderVars) (ts : TrainSets) : Py LinExpr :=
  if spp = sp then
    if sp ≠ s then do
      let b ← canMOonLine jp jpp s ts
      if b then getY4in y inKey jp jpp s else getY3 y jp jpp sp
    else getY3 y jp jpp sp
  else if s = spp ∨ s = sp then getY4singleline y jp jpp sp spp
  else getY4in y inKey jp jpp s

/-- `tau pass` from the departure station to `s`, or nothing if the train departs from `s`;
lines 566-574 -/
def passTo (tt : Timetable) (j sp s : Val) : Py ℚ := if s ≠ sp then tauPass tt j sp s else .ok 0

/-- `switch_occ`, lines 554-593 -/
def switchOcc (s jp sp jpp spp : Val) (tt : Timetable) (dv : DelayVars) (y : OrderVars)
    (ts : TrainSets) (dmax : ℚ) : Py (List Named) := do
  let l ← earliestDepTime ts.paths tt jp sp
  let r ← earliestDepTime ts.paths tt jpp spp
  let res ← tauRes tt
  let pl ← passTo tt jp sp s
  let pr ← passTo tt jpp spp s
  let lhs := l + pl
  let rhs := r + res + pr
  let M := getM lhs rhs dmax
  if lhs < rhs + dmax then do
    let yv ← switchOrderVar s jp sp jpp spp y ts
    let dl ← delayAt dv jp sp
    let dr ← delayAt dv jpp spp
    .ok [("switch_" ++ key4 jp jpp s sp ++ "_" ++ spp.render,
      .mkGE ((LinExpr.num lhs).add (.var dl)) (((LinExpr.num rhs).sub (.smul M yv)).add (.var dr)))]
  else .ok []

/-- body of the loops of `switch_occupation`, lines 610-641 -/
def switchBody (s : Val) (pair : Dict Val String) (tt : Timetable) (dv : DelayVars) (y : OrderVars)
    (ts : TrainSets) (dmax : ℚ) : Py (List Named) :=
  match pair with
  | [(jp, _), (jpp, _)] =>
    if notTheSameRollingStock jp jpp ts then do
      let sp ← departureStation4switches s jp pair ts
      let spp ← departureStation4switches s jpp pair ts
      let a ← switchOcc s jp sp jpp spp tt dv y ts dmax
      let b ← switchOcc s jpp spp jp sp tt dv y ts dmax
      .ok (a ++ b)
    else .ok []
  | _ => .error .valueError

/-- `switch_occupation`, lines 597-641 -/
def switchOccupation (tt : Timetable) (dv : DelayVars) (y : OrderVars) (ts : TrainSets) (dmax : ℚ) :
    Py (List Named) :=
  collect ts.Jswitch fun e => collect e.2 fun pair => switchBody e.1 pair tt dv y ts dmax

/-- body of the loop of `rolling_stock_circ`, lines 651-663 -/
def circBody (s j jp : Val) (tt : Timetable) (dv : DelayVars) (ts : TrainSets) (dmax : ℚ) :
    Py (List Named) := do
  let path ← Dict.at! ts.paths j
  let sp ← previousStation path s
  let l ← earliestDepTime ts.paths tt j sp
  let rhs ← earliestDepTime ts.paths tt jp s
  let p ← tauPass tt j sp s
  let pr ← tauPrep tt jp s
  let lhs := l + p + pr
  if rhs < lhs + dmax then do
    let dl ← delayAt dv j sp
    let dr ← delayAt dv jp s
    .ok [("circulation_" ++ key3 j jp s,
      .mkGE ((LinExpr.num rhs).add (.var dr)) ((LinExpr.num lhs).add (.var dl)))]
  else .ok []

/-- `rolling_stock_circ`, lines 644-663 -/
def rollingStockCirc (tt : Timetable) (dv : DelayVars) (ts : TrainSets) (dmax : ℚ) :
    Py (List Named) :=
  collect ts.Jround fun e => collect e.2 fun p => circBody e.1 p.1 p.2 tt dv ts dmax

/-! ## Objective and problem, lines 666-697 -/

/-- the terms of the objective, lines 670-675; division by `d_max = 0` raises
`ZeroDivisionError` -/
def objectiveTerms (tt : Timetable) (dv : DelayVars) (ts : TrainSets) (dmax : ℚ) :
    Py (List LinExpr) :=
  collect ts.J fun i => do
    let path ← Dict.at! ts.paths i
    collect path fun s =>
      if penaltyWeights tt i s ≠ 0 then do
        let v ← delayAt dv i s
        if dmax = 0 then .error .zeroDivision
        else .ok [LinExpr.smul (1 / dmax) (.smul (penaltyWeights tt i s) (.var v))]
      else .ok []

/-- `objective`, lines 666-676 (`lpSum`) -/
def objective (tt : Timetable) (dv : DelayVars) (ts : TrainSets) (dmax : ℚ) : Py LinExpr := do
  let l ← objectiveTerms tt dv ts dmax
  .ok (l.foldl LinExpr.add ⟨[], 0⟩)

/-- the problem together with the variable dictionaries that `create_linear_problem` uses
internally -/
structure Built where
  dv : DelayVars
  y : OrderVars
  prob : Problem

/-- `create_linear_problem`, lines 679-697, keeping the variable dictionaries -/
def buildProblem (ts : TrainSets) (tt : Timetable) (dmax : ℚ) (cat : Cat) : Py Built := do
  let dv ← delayVariables ts dmax cat
  let y ← orderVariables ts
  let c1 ← minimalSpan tt dv y ts dmax
  let c2 ← minimalStay tt dv ts
  let c3 ← singleLine tt dv y ts dmax
  let c4 ← trackOccupation tt dv y ts dmax
  let c5 ← rollingStockCirc tt dv ts dmax
  let c6 ← switchOccupation tt dv y ts dmax
  let obj ← objective tt dv ts dmax
  let p ← Problem.empty.addAll (c1 ++ c2 ++ c3 ++ c4 ++ c5 ++ c6)
  .ok ⟨dv, y, { p with objective := obj }⟩

/-- `create_linear_problem`, lines 679-697 -/
def createLinearProblem (ts : TrainSets) (tt : Timetable) (dmax : ℚ) (cat : Cat) : Py Problem :=
  match buildProblem ts tt dmax cat with
  | .ok b => .ok b.prob
  | .error e => .error e

/-! ## Reporting, lines 713-741

`sol` gives the values: `v.varValue` of the solved problem, or `data[v.name]`. -/

/-- `delay_and_acctual_time`, lines 713-727 -/
def delayAndActualTime (ts : TrainSets) (tt : Timetable) (p : Problem) (sol : LpVar → ℚ)
    (j s : Val) : Py (ℚ × ℚ × ℚ) :=
  match p.vars.find? fun v => v.name = "Delays_" ++ key2 j s with
  | some v => do
    let c ← earliestDepTime ts.paths tt j s
    .ok (sol v, sol v + c, c)
  | .none => .ok (0, 0, 0)

/-- `impact_to_objective`, lines 730-741 -/
def impactToObjective (p : Problem) (tt : Timetable) (sol : LpVar → ℚ) (j s : Val) (dmax : ℚ) :
    Py ℚ :=
  match p.vars.find? fun v => v.name = "Delays_" ++ key2 j s with
  | some v => if dmax = 0 then .error .zeroDivision else .ok (penaltyWeights tt j s / dmax * sol v)
  | .none => .ok 0

end Verif
