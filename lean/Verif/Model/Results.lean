import Verif.Model.Report
import Mathlib.Data.List.Sort

/-!
# Model of `railway_solvers/railway_solvers/results_manipulation.py`

A sample maps names of variables to numbers. A sample set is the sequence of `(sample, energy)`
that `sampleset.data()` yields.
-/

namespace Verif

/-- a sample: value by variable name -/
abbrev Sample := Dict String ℚ

/-- `sum(val * sample[var.name] for var, val in items)` (raises `KeyError`) -/
def sampleSum (sample : Sample) : List (LpVar × ℚ) → Py ℚ
  | [] => .ok 0
  | t :: rest => do
    let x ← Dict.at! sample t.1.name
    let r ← sampleSum sample rest
    .ok (t.2 * x + r)

/-- body of the loop of `analyze_constraints`, lines 23-30 -/
def checkConstraint (sample : Sample) (c : Constraint) : Py Bool := do
  let e ← sampleSum sample c.expr.terms
  match c.sense with
  | .eq => .ok (decide (e = -c.expr.const))
  | .le => .ok (decide (e ≤ -c.expr.const))
  | .ge => .ok (decide (-c.expr.const ≤ e))

/-- `analyze_constraints`, lines 8-31: which constraints hold, and how many -/
def analyzeConstraints (p : Problem) (sample : Sample) : Py (Dict String Bool × Nat) := do
  let r ← loop p.constraints (fun (d : Dict String Bool) nc => do
    let h ← checkConstraint sample nc.2
    .ok (Dict.set d nc.1 h)) []
  .ok (r, (r.map fun x => if x.2 then 1 else 0).sum)

/-- `get_objective`, lines 33-46 -/
def getObjective (p : Problem) (sample : Sample) : Py ℚ := do
  let e ← sampleSum sample p.objective.terms
  .ok (p.objective.const + e)

/-- the dictionary made for each sample, lines 79-85 -/
structure Record where
  energy : ℚ
  objective : ℚ
  feasible : Bool
  sample : Sample
  feasConstraints : Dict String Bool × Nat

/-- lines 79-85 -/
def analyzeSample (p : Problem) (data : Sample × ℚ) : Py Record := do
  let o ← getObjective p data.1
  let a ← analyzeConstraints p data.1
  .ok ⟨data.2, o, a.1.all (·.2), data.1, a⟩

/-- `get_results`, lines 61-87 (`sorted` is stable, as is insertion sort) -/
def getResults (sampleset : List (Sample × ℚ)) (p : Problem) : Py (List Record) := do
  let l ← mapPy (analyzeSample p) sampleset
  .ok (l.insertionSort fun a b => a.objective ≤ b.objective)

/-- `get_best_feasible_sample`, lines 48-59. (The records are non-empty dicts, hence truthy.) -/
def getBestFeasibleSample (l : List Record) : Py Record :=
  match l.find? (·.feasible) with
  | some r => .ok r
  | .none => nth (l.insertionSort fun a b => a.energy ≤ b.energy) 0

/-- `solve_on_quantum`, `helpers.py` lines 222-251, for the sample set returned by `q_process`
(timing and solver information left out) -/
def solveOnQuantum (sampleset : List (Sample × ℚ)) (p : Problem) : Py Record := do
  let l ← getResults sampleset p
  getBestFeasibleSample l

end Verif
