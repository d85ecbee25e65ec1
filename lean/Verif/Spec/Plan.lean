import Verif.Spec.Rules

/-!
# Plans: delays and precedences chosen by a dispatcher
-/

namespace Verif

/-- delays of all trains at all stations, and precedences: `F3 j jp s` "`j` before `jp` at `s`",
`F4 j jp s sp` "`j` leaving `s` before `jp` leaving `sp`", `FI j jp s` "`j` entering `s` before
`jp`" -/
structure Plan where
  delay : Val → Val → ℚ
  F3 : Val → Val → Val → Prop
  F4 : Val → Val → Val → Val → Prop
  FI : Val → Val → Val → Prop

/-- departure of a train under the plan, wherever it has a delay -/
def Plan.D (π : Plan) (ts : TrainSets) (tt : Timetable) (j s : Val) (t : ℚ) : Prop :=
  HasDelay ts j s ∧ ∃ e, earliestDepTime ts.paths tt j s = .ok e ∧ t = e + π.delay j s

/-- delays are within bounds (integers if required), and each precedence is decided one way -/
structure Plan.Valid (π : Plan) (ts : TrainSets) (dmax : ℚ) (cat : Cat) : Prop where
  low : ∀ j s, HasDelay ts j s → 0 ≤ π.delay j s
  up : ∀ j s, HasDelay ts j s → π.delay j s ≤ dmax
  int : cat = .integer → ∀ j s, HasDelay ts j s → ∃ n : ℤ, π.delay j s = n
  one3 : ∀ j jp s, j ≠ jp → (π.F3 j jp s ↔ ¬ π.F3 jp j s)
  one4 : ∀ j jp s sp, ¬ (j = jp ∧ s = sp) → (π.F4 j jp s sp ↔ ¬ π.F4 jp j sp s)
  oneIn : ∀ j jp s, j ≠ jp → (π.FI j jp s ↔ ¬ π.FI jp j s)

end Verif
