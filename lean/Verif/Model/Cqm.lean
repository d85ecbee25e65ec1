import Verif.Model.Results

/-!
# Model of `railway_solvers/railway_solvers/converter_cqm.py`

dimod (library, trusted): a variable of a constrained quadratic model is identified by its label;
adding two variables with one label but different types or bounds raises `ValueError`; `Integer`
needs `lower_bound ≤ upper_bound`; a sample is a map from labels to numbers and respects type and
bounds of each variable. A constraint or objective that is a plain number (no variables) raises
`TypeError`.
-/

namespace Verif

/-- `_is_binary`, lines 11-22 -/
def isBinary (v : LpVar) : Bool := decide (v.cat = .integer) && decide (v.low = 0) && decide (v.up = 1)

/-- variable of a constrained quadratic model: `Binary(label)` or `Integer(label, 0, ub)` -/
structure CqmVar where
  label : String
  binary : Bool
  ub : ℚ
  deriving DecidableEq, Inhabited

/-- a linear expression over labels -/
structure CqmExpr where
  terms : List (String × ℚ)
  const : ℚ
  deriving Inhabited

/-- a constraint `expr sense rhs` -/
structure CqmConstraint where
  label : String
  expr : CqmExpr
  sense : Sense
  rhs : ℚ
  deriving Inhabited

/-- a constrained quadratic model; `objective` is `None` if it has not been set (it is 0 then) -/
structure Cqm where
  vars : List CqmVar
  constraints : List CqmConstraint
  objective : Option CqmExpr

/-- lines 39-49: the dimod variable and the number added to it -/
def cqmVar (v : LpVar) : Py (CqmVar × ℚ) :=
  if isBinary v then .ok (⟨v.name, true, 1⟩, 0)
  else if v.cat = .integer then
    if v.up - v.low < 0 then .error .valueError else .ok (⟨v.name, false, v.up - v.low⟩, v.low)
  else .error .assertionError

/-- the dictionary `vars_trans`, lines 38-49 -/
def cqmVars (p : Problem) : Py (List (LpVar × CqmVar × ℚ)) :=
  mapPy (fun v => do
    let c ← cqmVar v
    .ok (v, c)) p.vars

/-- `sum(val * vars_trans[var] for var, val in items)`, lines 54, 72 -/
def cqmSum (tr : List (LpVar × CqmVar × ℚ)) (items : List (LpVar × ℚ)) : Py CqmExpr :=
  loop items (fun (e : CqmExpr) t => do
    let c ← Dict.at! tr t.1
    .ok ⟨e.terms ++ [(c.1.label, t.2)], e.const + t.2 * c.2⟩) ⟨[], 0⟩

/-- lines 53-61 -/
def cqmConstraint (tr : List (LpVar × CqmVar × ℚ)) (nc : String × Constraint) : Py CqmConstraint :=
  do
  let e ← cqmSum tr nc.2.expr.terms
  if nc.2.expr.terms = [] then .error .typeError
  else .ok ⟨nc.1, e, nc.2.sense, -nc.2.expr.const⟩

/-- lines 64-73; `bool(objective)` is false for the zero expression without variables -/
def cqmObjective (tr : List (LpVar × CqmVar × ℚ)) (o : LinExpr) : Py (Option CqmExpr) :=
  if o.terms = [] ∧ o.const = 0 then .ok .none
  else do
    let e ← cqmSum tr o.terms
    if o.terms = [] then .error .typeError else .ok (some ⟨e.terms, o.const + e.const⟩)

/-- `convert_to_cqm`, lines 25-75 (problems of the model are minimisation problems) -/
def convertToCqm (p : Problem) : Py Cqm := do
  let tr ← cqmVars p
  let cs ← mapPy (cqmConstraint tr) p.constraints
  let o ← cqmObjective tr p.objective
  if ∃ a ∈ tr, ∃ b ∈ tr, a.2.1.label = b.2.1.label ∧ a.2.1 ≠ b.2.1 then .error .valueError
  else .ok ⟨tr.map fun t => t.2.1, cs, o⟩

/-! ## What samples of a constrained quadratic model mean (dimod) -/

/-- value of an expression -/
def CqmExpr.eval (e : CqmExpr) (x : String → ℚ) : ℚ := (e.terms.map fun t => t.2 * x t.1).sum + e.const

/-- the sample respects the type and the bounds of a variable -/
def CqmVar.Allows (v : CqmVar) (x : ℚ) : Prop :=
  if v.binary then x = 0 ∨ x = 1 else 0 ≤ x ∧ x ≤ v.ub ∧ ∃ n : ℤ, x = n

/-- the sample satisfies a constraint -/
def CqmConstraint.Holds (c : CqmConstraint) (x : String → ℚ) : Prop :=
  match c.sense with
  | .le => c.expr.eval x ≤ c.rhs
  | .ge => c.rhs ≤ c.expr.eval x
  | .eq => c.expr.eval x = c.rhs

/-- the sample is a feasible point -/
def Cqm.Feasible (q : Cqm) (x : String → ℚ) : Prop :=
  (∀ v ∈ q.vars, v.Allows (x v.label)) ∧ ∀ c ∈ q.constraints, c.Holds x

/-- the objective at a sample -/
def Cqm.objectiveAt (q : Cqm) (x : String → ℚ) : ℚ :=
  match q.objective with
  | some e => e.eval x
  | .none => 0

end Verif
