import Verif.Spec.Rules

/-!
# Weighted delays
-/

namespace Verif

/-- the weight of a delay (0 if none is given) -/
def Weight (tt : Timetable) (j s : Val) : ℚ := (Dict.get? tt.penaltyWeights (key2 j s)).getD 0

/-- the trains and the stations on their paths -/
def Calls (ts : TrainSets) : List (Val × Val) :=
  ts.J.flatMap fun j => ((Dict.get? ts.paths j).getD []).map fun s => (j, s)

/-- sum of weight times delay over all trains and stations, `d` being the delays -/
def TotalDelay (ts : TrainSets) (tt : Timetable) (d : Val → Val → ℚ) : ℚ :=
  ((Calls ts).map fun c => Weight tt c.1 c.2 * d c.1 c.2).sum

/-- `d` gives the delays chosen by the solver (0 where there is no delay variable) -/
def Delays (dv : DelayVars) (σ : LpVar → ℚ) (d : Val → Val → ℚ) : Prop :=
  ∀ j s, (∀ v, delayAt dv j s = .ok v → d j s = σ v) ∧
    ((∀ v, delayAt dv j s ≠ .ok v) → d j s = 0)

end Verif
