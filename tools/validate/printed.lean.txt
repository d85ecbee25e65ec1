import Verif.Props.RealData
import Verif.Model.Print
import Lean.Data.Json
import Std.Data.HashMap
open Verif Verif.Real Lean
def arr! (j : Json) : Array Json := (j.getArr?).toOption.getD #[]
def str! (j : Json) : String := (j.getStr?).toOption.getD ""
def int! (j : Json) : Int := (j.getInt?).toOption.getD 0
def oi (j : Json) : Option Int := (j.getInt?).toOption
def main (args : List String) : IO Unit := do
  for k in args do
  let f := s!"/tmp/work/pk/cqm5_case{k}_Integer.json"
  let some j := (Json.parse (← IO.FS.readFile f)).toOption | IO.println "parse"
  let some pr := (Json.parse (← IO.FS.readFile s!"/tmp/work/pk/pr_cqm5_case{k}_Integer.json")).toOption | IO.println "parse"
  let a := arr! j
  let idx := (int! a[0]!).toNat
  let delays := (arr! a[1]!).toList.map fun e => (int! (arr! e)[0]!, ((int! (arr! e)[1]! : Int) : ℚ))
  let some d := shipped[idx]? | IO.println "idx"
  match (do
    let td ← buildTimetables d.sheet d.net.stationTable d.net.pathTable
    let (ts, tt) ← makeInput td d.net.stationTable d.net.pathTable d.start 1 delays
    let (_, tt0) ← makeInput td d.net.stationTable d.net.pathTable d.start 0 delays
    let b ← buildProblem ts tt 40 .integer
    .ok (ts, tt, tt0, b)) with
  | .error _ => IO.println "model error"
  | .ok (ts, tt, tt0, b) =>
    let pv : Problem := ⟨[], ⟨(b.prob.constraints.flatMap fun c => c.2.expr.terms).foldl (fun acc t => if t.1.name.startsWith "Delays" && !(acc.any fun u => u.1.name == t.1.name) then acc ++ [t] else acc) b.prob.objective.terms, 0⟩⟩
    let mut n := 0
    for (e, q) in (arr! a[2]!).toList.zip (arr! pr).toList do
      let e := arr! e
      let mut m : Std.HashMap String ℚ := {}
      for p in arr! e[0]! do
        m := m.insert (str! (arr! p)[0]!) ((str! (arr! p)[1]!).toInt! : ℚ)
      let σ : LpVar → ℚ := fun v => m.getD v.name 0
      n := n + 1
      match printOptimisationResults pv ts tt tt0.tauPass (ts.skipStation.getD []) 40 0 σ with
      | .error _ => IO.println "print error"
      | .ok r =>
        let out := r.flatMap fun (t, l) => l.map fun (s, x) => s!"{t.render} {s.render} {x.arrive} {x.conflictedArrive} {x.departure} {x.secondaryDelay} {x.conflictedDeparture} {x.impact.map (· * 320)}"
        let file := (arr! q).toList.map fun p => let p := arr! p
          s!"{int! p[0]!} {str! p[1]!} {oi p[2]!} {oi p[3]!} {oi p[4]!} {oi p[5]!} {oi p[6]!} {(oi p[7]!).map fun (i : Int) => (i : ℚ)}"
        let bad := (out.zip file).filter fun x => x.1 != x.2
        IO.println s!"case {k} real. {n}: rows {out.length} file {file.length} differing {bad.length} {out == file}"
        for x in bad.take 3 do IO.println s!"  {x.1} | {x.2}"
