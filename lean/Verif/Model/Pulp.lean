import Verif.Py
import Mathlib.Tactic.Ring
import Mathlib.Data.List.Dedup
import Mathlib.Algebra.BigOperators.Group.List.Basic
import Mathlib.Algebra.BigOperators.Ring.List

/-!
# The PuLP objects used by `linear_solver.py`

Library behaviour (trusted, see DESIGN.md): variables are compared by identity, names are
sanitised, constraints are stored under unique names, an affine expression is a dict from
variables to coefficients plus a constant.
-/

namespace Verif

/-- `cat` of a variable. -/
inductive Cat
  | integer
  | continuous
  deriving DecidableEq, Repr

/-- Object identity of a variable: the place in the nested dictionaries of
`linear_solver.py` where it is stored (`secondary_delays_vars[j][s]`, `order_vars[a][b][c][d]`). -/
inductive VarId
  | delay (j s : Val)
  | order (a b c d : Val)
  deriving DecidableEq, Repr

/-- `pulp.LpVariable` -/
structure LpVar where
  vid : VarId
  name : String
  low : ℚ
  up : ℚ
  cat : Cat
  deriving DecidableEq

/-- Replacement of characters that PuLP does not allow in names:
`illegal_chars = "-+[] ->/"`, all mapped to `_` (PuLP, `LpElement.setName`). -/
def sanitize (s : String) : String :=
  String.ofList (s.toList.map fun c => if c ∈ ['-', '+', '[', ']', ' ', '>', '/'] then '_' else c)

/-- `pulp.LpAffineExpression`: dict of coefficients and constant. -/
structure LinExpr where
  terms : List (LpVar × ℚ)
  const : ℚ
  deriving DecidableEq

namespace LinExpr

/-- `LpAffineExpression.addterm` -/
def addTerm (t : List (LpVar × ℚ)) (v : LpVar) (c : ℚ) : List (LpVar × ℚ) :=
  match t with
  | [] => [(v, c)]
  | (v', c') :: rest => if v' = v then (v', c' + c) :: rest else (v', c') :: addTerm rest v c

/-- A number as an expression. -/
def num (c : ℚ) : LinExpr := ⟨[], c⟩

/-- A variable as an expression. -/
def var (v : LpVar) : LinExpr := ⟨[(v, 1)], 0⟩

/-- `e1 + e2` -/
def add (e f : LinExpr) : LinExpr :=
  ⟨f.terms.foldl (fun acc t => addTerm acc t.1 t.2) e.terms, e.const + f.const⟩

/-- `c * e`; PuLP returns the empty expression for `c = 0`. -/
def smul (c : ℚ) (e : LinExpr) : LinExpr :=
  if c = 0 then ⟨[], 0⟩ else ⟨e.terms.map fun t => (t.1, c * t.2), c * e.const⟩

/-- `e1 - e2` -/
def sub (e f : LinExpr) : LinExpr := add e (smul (-1) f)

/-- Value of an expression under an assignment of the variables. -/
def eval (σ : LpVar → ℚ) (e : LinExpr) : ℚ :=
  (e.terms.map fun t => t.2 * σ t.1).sum + e.const

end LinExpr

/-- Sense of a constraint. -/
inductive Sense
  | le | ge | eq
  deriving DecidableEq, Repr, Inhabited

/-- `pulp.LpConstraint`: the expression `LHS - RHS` (including the constant) and the sense. -/
structure Constraint where
  expr : LinExpr
  sense : Sense
  deriving DecidableEq

namespace Constraint

/-- `LHS >= RHS` -/
def mkGE (l r : LinExpr) : Constraint := ⟨l.sub r, .ge⟩

/-- `LHS == RHS` -/
def mkEQ (l r : LinExpr) : Constraint := ⟨l.sub r, .eq⟩

/-- The constraint is satisfied by an assignment. -/
def Holds (σ : LpVar → ℚ) (c : Constraint) : Prop :=
  match c.sense with
  | .le => c.expr.eval σ ≤ 0
  | .ge => 0 ≤ c.expr.eval σ
  | .eq => c.expr.eval σ = 0

end Constraint

/-- A constraint together with the name given in `problem += c, name`. -/
abbrev Named := String × Constraint

/-- `pulp.LpProblem` (always `LpMinimize` here). -/
structure Problem where
  constraints : Dict String Constraint
  objective : LinExpr

namespace Problem

/-- `pus.LpProblem("Trains", pus.LpMinimize)` -/
def empty : Problem := ⟨[], ⟨[], 0⟩⟩

/-- `problem += c, name`: the name is sanitised; a repeated name raises `PulpError`. -/
def addConstraint (p : Problem) (nc : Named) : Py Problem :=
  if Dict.has p.constraints (sanitize nc.1) then .error .pulpError
  else .ok { p with constraints := p.constraints ++ [(sanitize nc.1, nc.2)] }

/-- Adding several constraints one after the other. -/
def addAll (p : Problem) (ncs : List Named) : Py Problem := loop ncs addConstraint p

/-- `problem.variables()`: the variables of objective and constraints. (PuLP sorts them by name;
the order is only used to find the first variable of a given name, which a stable sort does not
change.) -/
def vars (p : Problem) : List LpVar :=
  ((p.objective.terms.map Prod.fst) ++
    (p.constraints.flatMap fun c => c.2.expr.terms.map Prod.fst)).dedup

/-- `problem.numConstraints()` -/
def numConstraints (p : Problem) : Nat := p.constraints.length

end Problem

/-- A value is in the domain of a variable. -/
def InDomain (v : LpVar) (x : ℚ) : Prop :=
  v.low ≤ x ∧ x ≤ v.up ∧ (v.cat = .integer → ∃ n : ℤ, x = n)

/-! ## Evaluation lemmas -/

namespace LinExpr

theorem sum_addTerm (σ : LpVar → ℚ) (t : List (LpVar × ℚ)) (v : LpVar) (c : ℚ) :
    ((addTerm t v c).map fun t => t.2 * σ t.1).sum
      = (t.map fun t => t.2 * σ t.1).sum + c * σ v := by
  induction t with
  | nil => simp [addTerm]
  | cons p t ih =>
    obtain ⟨v', c'⟩ := p
    simp only [addTerm]
    split
    · rename_i h; subst h; simp only [List.map_cons, List.sum_cons]; ring
    · simp only [List.map_cons, List.sum_cons, ih]; ring

theorem sum_foldl_addTerm (σ : LpVar → ℚ) (t u : List (LpVar × ℚ)) :
    ((u.foldl (fun acc t => addTerm acc t.1 t.2) t).map fun t => t.2 * σ t.1).sum
      = (t.map fun t => t.2 * σ t.1).sum + (u.map fun t => t.2 * σ t.1).sum := by
  induction u generalizing t with
  | nil => simp
  | cons p u ih => simp only [List.foldl_cons, ih, sum_addTerm, List.map_cons, List.sum_cons]; ring

@[simp] theorem eval_num (σ : LpVar → ℚ) (c : ℚ) : (num c).eval σ = c := by simp [num, eval]

@[simp] theorem eval_var (σ : LpVar → ℚ) (v : LpVar) : (var v).eval σ = σ v := by
  simp [var, eval]

@[simp] theorem eval_add (σ : LpVar → ℚ) (e f : LinExpr) :
    (e.add f).eval σ = e.eval σ + f.eval σ := by
  simp only [add, eval, sum_foldl_addTerm]; ring

@[simp] theorem eval_smul (σ : LpVar → ℚ) (c : ℚ) (e : LinExpr) :
    (smul c e).eval σ = c * e.eval σ := by
  simp only [smul]
  split
  · rename_i h; subst h; simp [eval]
  · simp only [eval, List.map_map, mul_add]
    congr 1
    rw [← List.sum_map_mul_left]
    congr 1
    apply List.map_congr_left
    intro t _
    simp only [Function.comp]; ring

@[simp] theorem eval_sub (σ : LpVar → ℚ) (e f : LinExpr) :
    (e.sub f).eval σ = e.eval σ - f.eval σ := by
  simp only [sub, eval_add, eval_smul]; ring

end LinExpr

namespace Constraint

@[simp] theorem holds_mkGE (σ : LpVar → ℚ) (l r : LinExpr) :
    (mkGE l r).Holds σ ↔ r.eval σ ≤ l.eval σ := by
  simp [mkGE, Holds]

@[simp] theorem holds_mkEQ (σ : LpVar → ℚ) (l r : LinExpr) :
    (mkEQ l r).Holds σ ↔ l.eval σ = r.eval σ := by
  simp [mkEQ, Holds, sub_eq_zero]

end Constraint

namespace Problem

theorem addAll_ok {p q : Problem} {ncs : List Named} (h : p.addAll ncs = .ok q) :
    q.objective = p.objective ∧
    q.constraints = p.constraints ++ ncs.map (fun nc => (sanitize nc.1, nc.2)) ∧
    ((Dict.keys p.constraints).Nodup → (Dict.keys q.constraints).Nodup) := by
  unfold addAll at h
  induction ncs generalizing p with
  | nil => simp only [loop, Except.ok.injEq] at h; subst h; simp
  | cons nc ncs ih =>
    simp only [loop] at h
    split at h
    · cases h
    · rename_i p' hp
      obtain ⟨h1, h2, h3⟩ := ih h
      simp only [addConstraint] at hp
      split at hp
      · cases hp
      · rename_i hn
        cases hp
        refine ⟨h1, ?_, ?_⟩
        · rw [h2]; simp
        · intro hnd
          apply h3
          simp only [Dict.keys, List.map_append, List.map_cons, List.map_nil]
          rw [List.nodup_append]
          refine ⟨hnd, by simp, ?_⟩
          intro a ha b hb
          simp only [List.mem_singleton] at hb; subst hb
          rintro rfl
          apply hn
          have := (Dict.get?_isSome p.constraints (sanitize nc.1)).2 ha
          exact this

end Problem

end Verif
