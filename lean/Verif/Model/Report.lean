import Verif.Model.Linear

/-!
# Model of the reporting functions of `/repo/helpers.py` and of the constraint classes of
`railway_solvers/railway_solvers/converter_bqm.py`
-/

namespace Verif

/-- `count_vars`, `helpers.py` lines 158-168: number of order variables, of the other variables and
of constraints -/
def countVars (p : Problem) : Nat × Nat × Nat :=
  let order := (p.vars.filter fun v => strContains v.name "z_" || strContains v.name "y_").length
  (order, p.vars.length - order, p.numConstraints)

/-- `re.match(pre, name)` for a pattern without special characters -/
def reMatch (pre name : String) : Bool := decide (pre.toList <+: name.toList)

/-- `_get_placeholder`, `converter_bqm.py` lines 14-39: the name of the placeholder -/
def getPlaceholder (cname : String) : Py String :=
  if reMatch "minimal_span_" cname then .ok "minimal_span"
  else if reMatch "circulation_" cname then .ok "circulation"
  else if reMatch "single_line_" cname then .ok "single_line"
  else if reMatch "minimal_stay_" cname then .ok "minimal_stay"
  else if reMatch "track_occupation_" cname then .ok "track_occupation"
  else if reMatch "switch_" cname then .ok "switch"
  else if reMatch "circulation_" cname then .ok "circulation"
  else .error .valueError

end Verif
