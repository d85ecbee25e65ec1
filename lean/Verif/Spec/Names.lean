import Verif.Model.Linear

/-!
# Names that do not clash with the literal keys of the order-variable dictionary

`linear_solver.py` stores order variables in one nested dictionary under
`y[j][j']["one_station"][s]`, `y[j][j'][s][s']` and `y["in"][j][j'][s]`. A train called `"in"` or a
station called `"one_station"` would clash with these keys.
-/

namespace Verif

/-- `T` holds for all train names that take part in order variables, `U` for all stations used in
two-station variables -/
structure NamesTU (T U : Val → Prop) (ts : TrainSets) : Prop where
  josingle : ∀ e ∈ ts.Josingle, U e.1.1 ∧ U e.1.2 ∧ ∀ p ∈ e.2, T p.1 ∧ T p.2
  jd : ∀ e ∈ ts.Jd, ∀ e2 ∈ e.2, ∀ g ∈ e2.2, ∀ j ∈ g, T j
  jtrack : ∀ e ∈ ts.Jtrack, ∀ g ∈ e.2, ∀ j ∈ g, T j
  jswitch : ∀ e ∈ ts.Jswitch, U e.1 ∧ ∀ pair ∈ e.2, ∀ x ∈ pair, T x.1
  paths : ∀ e ∈ ts.paths, ∀ s ∈ e.2, U s
  unone : U .none

/-- names that do not clash with the literal keys used inside the dictionary, and no station is
called `None` -/
structure NamesOK (ts : TrainSets) : Prop where
  names : NamesTU (· ≠ inKey) (· ≠ oneStation) ts
  stations : ∀ e ∈ ts.Jswitch, e.1 ≠ .none

end Verif
