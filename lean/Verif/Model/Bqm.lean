import Verif.Model.Cqm
import Mathlib.Data.Nat.Log

/-!
# Model of `railway_solvers/railway_solvers/converter_bqm.py`

pyqubo (library, trusted): bits are identified by their label; `LogEncInteger(label, (lo, up))`
needs `lo < up`, both integers, and stands for
`lo + sum_{i<d} 2^i label[i] + (span - (2^d - 1)) label[d]` with `span = up - lo`,
`d = int(log2(span))`; compiling keeps the energy of every bit string; `decode_sample` evaluates the
integer expressions and the bits.
-/

namespace Verif

/-- the label of bit `i` of an encoded integer -/
def bitName (label : String) (i : ℕ) : String := label ++ "[" ++ toString i ++ "]"

/-- a linear expression over bits -/
structure BitExpr where
  terms : List (String × ℚ)
  const : ℚ
  deriving Inhabited

/-- the bits and weights of `LogEncInteger` -/
def logEncTerms (label : String) (span : ℕ) : List (String × ℚ) :=
  (List.range (Nat.log 2 span)).map (fun i => (bitName label i, (2 : ℚ) ^ i)) ++
    [(bitName label (Nat.log 2 span), (span : ℚ) - (2 ^ Nat.log 2 span - 1))]

/-- `LogEncInteger(label, (lo, up))` -/
def logEncInteger (label : String) (lo up : ℚ) : Py BitExpr :=
  if lo < up then
    if lo.den = 1 ∧ up.den = 1 then .ok ⟨logEncTerms label (up - lo).num.toNat, lo⟩
    else .error .assertionError
  else .error .assertionError

/-- `sum(val * (var.upBound if val < 0 else var.lowBound) for var, val in data)`, line 54 -/
def lowestValue (data : List (LpVar × ℚ)) : ℚ :=
  (data.map fun t => t.2 * (if t.2 < 0 then t.1.up else t.1.low)).sum

/-- `_get_slack_ub`, lines 42-57 -/
def getSlackUb (data : List (LpVar × ℚ)) (offset : ℚ) : Py ℚ :=
  let result := -(lowestValue data + offset)
  if result.den = 1 then .ok result else .error .assertionError

/-- lines 74-81: the expression for a variable -/
def bqmVar (v : LpVar) : Py BitExpr :=
  if v.cat = .continuous then .error .assertionError
  else if isBinary v then .ok ⟨[(v.name, 1)], 0⟩
  else logEncInteger v.name v.low v.up

/-- the dictionary `vars_trans`, lines 73-81 -/
def bqmVars (p : Problem) : Py (List (LpVar × BitExpr)) :=
  mapPy (fun v => do
    let c ← bqmVar v
    .ok (v, c)) p.vars

/-- `sum(val * vars_trans[var] for var, val in items)` plus a constant, lines 86-87, 110-111 -/
def bqmSum (tr : List (LpVar × BitExpr)) (items : List (LpVar × ℚ)) (c : ℚ) : Py BitExpr :=
  loop items (fun (e : BitExpr) t => do
    let x ← Dict.at! tr t.1
    .ok ⟨e.terms ++ x.terms.map (fun b => (b.1, t.2 * b.2)), e.const + t.2 * x.const⟩) ⟨[], c⟩

/-- a summand `ph * expr ** 2` -/
structure Penalty where
  placeholder : String
  expr : BitExpr
  deriving Inhabited

/-- a polynomial: squared penalties and the objective, to be multiplied by
`Placeholder("objective")` -/
structure Qubo where
  penalties : List Penalty
  objective : Option BitExpr

/-- the slack of an inequality and the signed expression, lines 92-103 -/
def bqmPenaltyExpr (cname : String) (c : Constraint) (e : BitExpr) : Py BitExpr :=
  match c.sense with
  | .eq => .ok e
  | .le => do
    let ub ← getSlackUb c.expr.terms c.expr.const
    let s ← logEncInteger cname 0 ub
    .ok ⟨e.terms ++ s.terms, e.const + s.const⟩
  | .ge => do
    let ub ← getSlackUb (c.expr.terms.map fun t => (t.1, -t.2)) (-c.expr.const)
    let s ← logEncInteger cname 0 ub
    .ok ⟨e.terms ++ s.terms.map (fun b => (b.1, -b.2)), e.const - s.const⟩

/-- lines 85-103: the penalty of one constraint -/
def bqmPenalty (tr : List (LpVar × BitExpr)) (nc : String × Constraint) : Py Penalty := do
  let e ← bqmSum tr nc.2.expr.terms nc.2.expr.const
  let ph ← getPlaceholder nc.1
  let f ← bqmPenaltyExpr nc.1 nc.2 e
  .ok ⟨ph, f⟩

/-- lines 106-112 -/
def bqmObjective (tr : List (LpVar × BitExpr)) (o : LinExpr) : Py (Option BitExpr) :=
  if o.terms = [] ∧ o.const = 0 then .ok .none
  else do
    let e ← bqmSum tr o.terms o.const
    .ok (some e)

/-- `convert_to_pyqubo`, lines 60-113; without constraints and objective `H` is the number 0, which
cannot be compiled -/
def convertToPyqubo (p : Problem) : Py Qubo := do
  let tr ← bqmVars p
  let ps ← mapPy (bqmPenalty tr) p.constraints
  let o ← bqmObjective tr p.objective
  if ps.isEmpty && o.isNone then .error .attributeError else .ok ⟨ps, o⟩

/-- bit strings -/
abbrev Bits := String → Bool

/-- value of an expression -/
def BitExpr.eval (e : BitExpr) (x : Bits) : ℚ :=
  (e.terms.map fun t => t.2 * (if x t.1 then 1 else 0)).sum + e.const

/-- the energy of a bit string under the penalty dictionary `pdict`, lines 116-145
(`to_bqm(feed_dict=pdict)`; a missing placeholder raises) -/
def Qubo.energy (q : Qubo) (pdict : Dict String ℚ) (x : Bits) : Py ℚ := do
  let l ← mapPy (fun pen : Penalty => do
    let w ← Dict.at! pdict pen.placeholder
    .ok (w * (pen.expr.eval x) ^ 2)) q.penalties
  match q.objective with
  | .none => .ok l.sum
  | some o => do
    let w ← Dict.at! pdict "objective"
    .ok (l.sum + w * o.eval x)

/-- `interpreter`, lines 132-143: the sample of the integer program for a bit string -/
def interpretSample (p : Problem) (x : Bits) : Py Sample :=
  mapPy (fun v => do
    let e ← bqmVar v
    .ok (v.name, e.eval x)) p.vars

/-- `interpreter` for a sample set -/
def interpret (p : Problem) (ss : List (Bits × ℚ)) : Py (List (Sample × ℚ)) :=
  mapPy (fun d => do
    let s ← interpretSample p d.1
    .ok (s, d.2)) ss

end Verif
