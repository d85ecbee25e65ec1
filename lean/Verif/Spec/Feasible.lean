import Verif.Model.Linear

/-!
# What a solver may answer, and when trains run

The specification quantifies over *every* assignment that satisfies the constraints and the
declared domains, optimal or not.
-/

namespace Verif

/-- every created variable has a value in its declared domain -/
structure Admissible (b : Built) (σ : LpVar → ℚ) : Prop where
  delays : ∀ j s v, delayAt b.dv j s = .ok v → InDomain v (σ v)
  orders : ∀ a c d e v, at4 b.y a c d e = .ok v → InDomain v (σ v)

/-- `σ` satisfies every constraint of the problem -/
def Satisfies (p : Problem) (σ : LpVar → ℚ) : Prop := ∀ c ∈ p.constraints, c.2.Holds σ

/-- `σ` is an answer a correct solver may return -/
structure Feasible (b : Built) (σ : LpVar → ℚ) : Prop where
  adm : Admissible b σ
  sat : Satisfies b.prob σ

/-- train `j` leaves station `s` at time `t`: the earliest possible departure plus the delay
chosen by the solver -/
def Departs (ts : TrainSets) (tt : Timetable) (dv : DelayVars) (σ : LpVar → ℚ) (j s : Val)
    (t : ℚ) : Prop :=
  ∃ e v, earliestDepTime ts.paths tt j s = .ok e ∧ delayAt dv j s = .ok v ∧ t = e + σ v

end Verif
