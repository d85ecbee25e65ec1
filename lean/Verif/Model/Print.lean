import Verif.Model.Table
import Verif.Model.Linear

/-!
# Model of `print_optimisation_results` of `/repo/helpers.py`

Line numbers refer to that file. A `datetime` is the number of minutes since some fixed moment;
`t_ref` is an argument. Not modelled: the printed line 96, and dates out of the range of `datetime`.
-/

namespace Verif

/-- `int(x)` of a number: rounds towards zero -/
def pyInt (q : ℚ) : ℤ := if 0 ≤ q then ⌊q⌋ else ⌈q⌉

/-- The dictionary `s_dict`, lines 106-125; `none` stands for a missing key. -/
structure Printed where
  arrive : Option ℤ := none
  conflictedArrive : Option ℤ := none
  departure : Option ℤ := none
  secondaryDelay : Option ℤ := none
  conflictedDeparture : Option ℤ := none
  impact : Option ℚ := none
  deriving DecidableEq

/-- Local variables of the inner loop: `s_prev`, `departure_prev`, `departure_conflict_prev`,
`train_sched` -/
structure PrintState where
  prev : Val
  dep : ℚ
  conf : ℚ
  sched : Dict Val Printed

/-- The `try` block, lines 107-113: a missing key is ignored, the other operations do not fail. -/
def printArrive (pass : Dict String ℚ) (tref : ℤ) (j s : Val) (acc : PrintState) : Printed :=
  match Dict.get? pass (key3 j acc.prev s) with
  | some w => { arrive := some (tref + (pyRound w + pyInt acc.dep))
                conflictedArrive := some (tref + (pyRound w + pyInt acc.conf)) }
  | .none => {}

/-- body of the inner loop, lines 106-131 -/
def printStep (p : Problem) (ts : TrainSets) (tt : Timetable) (pass : Dict String ℚ)
    (skip : Dict Val Val) (dmax : ℚ) (tref : ℤ) (sol : LpVar → ℚ) (j : Val) (acc : PrintState)
    (s : Val) : Py PrintState := do
  let row := printArrive pass tref j s acc
  if Dict.get? skip j = some s then .ok { acc with sched := Dict.set acc.sched s row }
  else do
    let delta ← impactToObjective p tt sol j s dmax
    let x ← delayAndActualTime ts tt p sol j s
    let row := { row with
      departure := some (tref + pyInt x.2.1)
      secondaryDelay := some (pyInt x.1)
      conflictedDeparture := some (tref + pyInt x.2.2)
      impact := some delta }
    .ok ⟨s, x.2.1, x.2.2, Dict.set acc.sched s row⟩

/-- the schedule of one train, lines 100-131 -/
def printTrain (p : Problem) (ts : TrainSets) (tt : Timetable) (pass : Dict String ℚ)
    (skip : Dict Val Val) (dmax : ℚ) (tref : ℤ) (sol : LpVar → ℚ) (j : Val) :
    Py (Dict Val Printed) := do
  let path ← Dict.at! ts.paths j
  let a ← loop path (printStep p ts tt pass skip dmax tref sol j) ⟨.int 0, 0, 0, []⟩
  .ok a.sched

/-- `print_optimisation_results(prob, timetable, train_set, taus, skip_stations, d_max, t_ref,
outside_data)`, lines 95-134; `pass` is `taus["pass"]`, `sol` the values of the variables (those of
`prob` or of `outside_data`) -/
def printOptimisationResults (p : Problem) (ts : TrainSets) (tt : Timetable)
    (pass : Dict String ℚ) (skip : Dict Val Val) (dmax : ℚ) (tref : ℤ) (sol : LpVar → ℚ) :
    Py (Dict Val (Dict Val Printed)) :=
  loop ts.J (fun d j => do
    let x ← printTrain p ts tt pass skip dmax tref sol j
    .ok (Dict.set d j x)) []

end Verif
