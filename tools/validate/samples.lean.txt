import Verif.Props.RealData
import Lean.Data.Json
import Std.Data.HashMap
open Verif Verif.Real Lean
def arr! (j : Json) : Array Json := (j.getArr?).toOption.getD #[]
def str! (j : Json) : String := (j.getStr?).toOption.getD ""
def int! (j : Json) : Int := (j.getInt?).toOption.getD 0
def bool! (j : Json) : Bool := (j.getBool?).toOption.getD false
def main (args : List String) : IO Unit := do
  for f in args do
  let txt ← IO.FS.readFile f
  let some j := (Json.parse txt).toOption | IO.println "parse"
  let a := arr! j
  let idx := (int! a[0]!).toNat
  let delays := (arr! a[1]!).toList.map fun e => (int! (arr! e)[0]!, ((int! (arr! e)[1]! : Int) : ℚ))
  let some d := shipped[idx]? | IO.println "idx"
  match (do
    let td ← buildTimetables d.sheet d.net.stationTable d.net.pathTable
    let (ts, tt) ← makeInput td d.net.stationTable d.net.pathTable d.start 1 delays
    buildProblem ts tt 40 .integer) with
  | .error _ => IO.println "model error"
  | .ok b =>
    let mut n := 0
    for e in arr! a[2]! do
      let e := arr! e
      let mut m : Std.HashMap String ℚ := {}
      for p in arr! e[0]! do
        m := m.insert (str! (arr! p)[0]!) ((str! (arr! p)[1]!).toInt! : ℚ)
      let σ : LpVar → ℚ := fun v => m.getD v.name 0
      let mut used : Std.HashMap String Bool := {}
      for c in b.prob.constraints do
        for t in c.2.expr.terms do used := used.insert t.1.name true
      for t in b.prob.objective.terms do used := used.insert t.1.name true
      let mut miss := 0; let mut extra := 0
      for (k, _) in used do if !(m.contains k) then
        if miss < 4 then IO.println s!"  var only in model {k}"
        miss := miss + 1
      for (k, _) in m do if !(used.contains k) then
        if extra < 4 then IO.println s!"  var only in file {k}"
        extra := extra + 1
      let mut fc : Std.HashMap String Bool := {}
      for p in arr! e[1]! do fc := fc.insert (str! (arr! p)[0]!) (bool! (arr! p)[1]!)
      let mut cm := 0; let mut cx := 0; let mut diff := 0; let mut viol := 0
      let mut names : Std.HashMap String Bool := {}
      for c in b.prob.constraints do
        names := names.insert c.1 true
        let r := match c.2.sense with
          | .le => decide (c.2.expr.eval σ ≤ 0)
          | .ge => decide (0 ≤ c.2.expr.eval σ)
          | .eq => decide (c.2.expr.eval σ = 0)
        if !r then viol := viol + 1
        match fc[c.1]? with
        | none => if cm < 4 then IO.println s!"  constraint only in model {c.1}"
                  cm := cm + 1
        | some t => if t != r then
                      if diff < 4 then IO.println s!"  truth differs {c.1} file {t}"
                      diff := diff + 1
      for (k, _) in fc do if !(names.contains k) then
        if cx < 4 then IO.println s!"  constraint only in file {k}"
        cx := cx + 1
      let o := b.prob.objective.eval σ * 320
      n := n + 1
      IO.println s!"{f} {n}: vars {used.size} missing {miss} extra {extra}; constraints {b.prob.constraints.length} missing {cm} extra {cx} differ {diff} violated {viol}; objective {o} file {str! e[2]!} order {(b.prob.constraints.map (·.1)) == ((arr! e[1]!).toList.map fun p => str! (arr! p)[0]!)}"
