import Verif.Spec.Feasible
import Mathlib.Tactic.Ring
import Mathlib.Tactic.Linarith

/-!
# Bounds over all feasible assignments of a concrete problem

The variables of a problem are listed, its constraints and bounds are written as vectors of
coefficients, and a bound is proved by a tree of cases for integer variables whose leaves are
non-negative combinations of the constraints.
-/

namespace Verif

/-- the fact `0 ≤ a₀ x₀ + a₁ x₁ + … + c` -/
abbrev Fact := List ℚ × ℚ

namespace Fact

def dot : List ℚ → List ℚ → ℚ
  | a :: as, x :: xs => a * x + dot as xs
  | _, _ => 0

def eval (f : Fact) (x : List ℚ) : ℚ := dot f.1 x + f.2

def addV : List ℚ → List ℚ → List ℚ
  | a :: as, b :: bs => (a + b) :: addV as bs
  | [], bs => bs
  | as, [] => as

def add (f g : Fact) : Fact := (addV f.1 g.1, f.2 + g.2)
def scale (k : ℚ) (f : Fact) : Fact := (f.1.map (k * ·), k * f.2)
def neg (f : Fact) : Fact := scale (-1) f

/-- `xᵢ` -/
def unit (i : ℕ) : List ℚ := List.replicate i 0 ++ [1]

theorem dot_addV (a b x : List ℚ) : dot (addV a b) x = dot a x + dot b x := by
  induction a generalizing b x with
  | nil => cases x <;> simp [addV, dot]
  | cons p a ih =>
    cases b with
    | nil => cases x <;> simp [addV, dot]
    | cons q b =>
      cases x with
      | nil => simp [addV, dot]
      | cons y x => simp only [addV, dot, ih]; ring

theorem dot_scale (k : ℚ) (a x : List ℚ) : dot (a.map (k * ·)) x = k * dot a x := by
  induction a generalizing x with
  | nil => cases x <;> simp [dot]
  | cons p a ih =>
    cases x with
    | nil => simp [dot]
    | cons y x => simp only [List.map_cons, dot, ih]; ring

theorem eval_add (f g : Fact) (x : List ℚ) : (f.add g).eval x = f.eval x + g.eval x := by
  simp only [add, eval, dot_addV]; ring

theorem eval_scale (k : ℚ) (f : Fact) (x : List ℚ) : (f.scale k).eval x = k * f.eval x := by
  simp only [scale, eval, dot_scale]; ring

theorem eval_neg (f : Fact) (x : List ℚ) : f.neg.eval x = -f.eval x := by
  rw [neg, eval_scale]; ring

theorem dot_unit (i : ℕ) (x : List ℚ) : dot (unit i) x = x[i]?.getD 0 := by
  induction i generalizing x with
  | zero => cases x <;> simp [unit, dot]
  | succ i ih =>
    cases x with
    | nil => simp [unit, dot, List.replicate_succ]
    | cons y x =>
      have := ih x
      simp only [unit] at this
      simp [unit, dot, List.replicate_succ, this]

end Fact

/-- a proof of a bound -/
inductive LpTree
  /-- `μ` times the goal is the sum of the given multiples of the facts, and a constant -/
  | leaf (μ : ℚ) (m : List (ℕ × ℚ))
  /-- variable `i`, an integer, is at most `k` or at least `k + 1` -/
  | split (i : ℕ) (k : ℤ) (lo hi : LpTree)

namespace LpTree

/-- the combination of the facts -/
def combine (fs : List Fact) : List (ℕ × ℚ) → Fact
  | [] => ([], 0)
  | (i, k) :: m =>
    match fs[i]? with
    | some f => if 0 ≤ k then (f.scale k).add (combine fs m) else combine fs m
    | .none => combine fs m

theorem combine_nonneg {fs : List Fact} {x : List ℚ} (h : ∀ f ∈ fs, 0 ≤ f.eval x)
    (m : List (ℕ × ℚ)) : 0 ≤ (combine fs m).eval x := by
  induction m with
  | nil => simp [combine, Fact.eval, Fact.dot]
  | cons p m ih =>
    obtain ⟨i, k⟩ := p
    simp only [combine]
    split
    · rename_i f hf
      split
      · rename_i hk
        rw [Fact.eval_add, Fact.eval_scale]
        have := mul_nonneg hk (h f (List.mem_of_getElem? hf))
        linarith
      · exact ih
    · exact ih

/-- `combination = μ goal - c` with `μ > 0`, `c ≥ 0` or `μ = 0`, `c > 0` -/
def leafOK (fs : List Fact) (goal : Fact) (μ : ℚ) (m : List (ℕ × ℚ)) : Bool :=
  let d := (goal.scale μ).add (combine fs m).neg
  d.1.all (· == 0) && ((decide (0 < μ) && decide (0 ≤ d.2)) || (decide (μ = 0) && decide (0 < d.2)))

def check (ints : List Bool) (goal : Fact) : List Fact → LpTree → Bool
  | fs, .leaf μ m => leafOK fs goal μ m
  | fs, .split i k lo hi =>
    (ints[i]? == some true) &&
    check ints goal (fs ++ [Fact.neg (Fact.unit i, -(k : ℚ))]) lo &&
    check ints goal (fs ++ [(Fact.unit i, -((k : ℚ) + 1))]) hi

theorem dot_zero {a : List ℚ} (h : a.all (· == 0) = true) (x : List ℚ) : Fact.dot a x = 0 := by
  induction a generalizing x with
  | nil => cases x <;> simp [Fact.dot]
  | cons p a ih =>
    simp only [List.all_cons, Bool.and_eq_true, beq_iff_eq] at h
    cases x with
    | nil => simp [Fact.dot]
    | cons y x => simp [Fact.dot, h.1, ih h.2]

theorem leafOK_spec {fs : List Fact} {goal : Fact} {μ : ℚ} {m : List (ℕ × ℚ)}
    (h : leafOK fs goal μ m = true) {x : List ℚ} (hx : ∀ f ∈ fs, 0 ≤ f.eval x) :
    0 ≤ goal.eval x := by
  unfold leafOK at h
  simp only [Bool.and_eq_true, Bool.or_eq_true, decide_eq_true_eq] at h
  obtain ⟨h1, h2⟩ := h
  have hc := combine_nonneg hx m
  have he : ((goal.scale μ).add (combine fs m).neg).eval x = μ * goal.eval x - (combine fs m).eval x := by
    rw [Fact.eval_add, Fact.eval_scale, Fact.eval_neg]; ring
  rw [Fact.eval, dot_zero h1, zero_add] at he
  rcases h2 with ⟨hμ, hd⟩ | ⟨hμ, hd⟩
  · have : 0 ≤ μ * goal.eval x := by linarith
    exact nonneg_of_mul_nonneg_right this hμ
  · rw [hμ, zero_mul, zero_sub] at he
    rw [hμ, he] at hd
    linarith

/-- the vector has integers where required -/
def Whole (ints : List Bool) (x : List ℚ) : Prop :=
  ∀ i : ℕ, ints[i]? = some true → ∃ n : ℤ, x[i]?.getD 0 = n

theorem check_spec {ints : List Bool} {goal : Fact} {x : List ℚ} (hw : Whole ints x) (t : LpTree) :
    ∀ fs : List Fact, t.check ints goal fs = true → (∀ f ∈ fs, 0 ≤ f.eval x) → 0 ≤ goal.eval x := by
  induction t with
  | leaf μ m => exact fun fs h hx => leafOK_spec h hx
  | split i k lo hi ihl ihh =>
    intro fs h hx
    simp only [check, Bool.and_eq_true, beq_iff_eq] at h
    obtain ⟨⟨h0, h1⟩, h2⟩ := h
    obtain ⟨n, hn⟩ := hw i h0
    rcases le_or_gt n k with hle | hlt
    · refine ihl _ h1 fun f hf => ?_
      rcases List.mem_append.1 hf with hf | hf
      · exact hx f hf
      · rw [List.mem_singleton] at hf
        subst hf
        rw [Fact.eval_neg, Fact.eval, Fact.dot_unit, hn]
        have : (n : ℚ) ≤ k := by exact_mod_cast hle
        linarith
    · refine ihh _ h2 fun f hf => ?_
      rcases List.mem_append.1 hf with hf | hf
      · exact hx f hf
      · rw [List.mem_singleton] at hf
        subst hf
        rw [Fact.eval, Fact.dot_unit, hn]
        have : (k : ℚ) + 1 ≤ n := by exact_mod_cast hlt
        linarith

end LpTree

/-! ## Writing a problem as facts -/

/-- the delay variables, then the order variables -/
def Built.allVars (b : Built) : List LpVar :=
  (b.dv.flatMap fun p => p.2.filterMap fun q => (delayAt b.dv p.1 q.1).toOption) ++
  (b.y.flatMap fun p => p.2.flatMap fun q => q.2.flatMap fun r => r.2.filterMap fun s =>
    (at4 b.y p.1 q.1 r.1 s.1).toOption)

/-- the coefficients of an expression -/
def codeExpr (vs : List LpVar) (e : LinExpr) : Fact :=
  (vs.map fun v => ((e.terms.filter fun t => t.1 = v).map Prod.snd).sum, e.const)

/-- bounds of the variables -/
def boundFacts (vs : List LpVar) : List Fact :=
  (List.range vs.length).flatMap fun i =>
    match vs[i]? with
    | some v => [(Fact.unit i, -v.low), Fact.neg (Fact.unit i, -v.up)]
    | .none => []

def constraintFacts (vs : List LpVar) (c : Constraint) : List Fact :=
  match c.sense with
  | .ge => [codeExpr vs c.expr]
  | .le => [(codeExpr vs c.expr).neg]
  | .eq => [codeExpr vs c.expr, (codeExpr vs c.expr).neg]

/-- a problem in numbers -/
structure Coded where
  ints : List Bool
  facts : List Fact
  objective : Fact
  deriving DecidableEq

/-- all variables of the problem are listed, once -/
def varsOK (b : Built) : Bool :=
  decide b.allVars.Nodup && b.prob.objective.terms.all (fun t => decide (t.1 ∈ b.allVars)) &&
  b.prob.constraints.all fun c => c.2.expr.terms.all fun t => decide (t.1 ∈ b.allVars)

def Built.code (b : Built) : Coded where
  ints := b.allVars.map fun v => decide (v.cat = .integer)
  facts := boundFacts b.allVars ++ b.prob.constraints.flatMap fun c => constraintFacts b.allVars c.2
  objective := codeExpr b.allVars b.prob.objective

theorem dot_terms {vs : List LpVar} (hvs : vs.Nodup) {ts : List (LpVar × ℚ)}
    (h : ∀ t ∈ ts, t.1 ∈ vs) (σ : LpVar → ℚ) :
    Fact.dot (vs.map fun v => ((ts.filter fun t => t.1 = v).map Prod.snd).sum) (vs.map σ) =
      (ts.map fun t => t.2 * σ t.1).sum := by
  induction ts with
  | nil =>
    have : ∀ l : List LpVar, Fact.dot (l.map fun _ => (0 : ℚ)) (l.map σ) = 0 := by
      intro l
      induction l with
      | nil => rfl
      | cons a l ih => simp only [List.map_cons, Fact.dot, ih]; ring
    simpa using this vs
  | cons t ts ih =>
    have ht := h t (by simp)
    have key : ∀ (f : LpVar → ℚ) (l : List LpVar), l.Nodup →
        Fact.dot (l.map fun v => (if t.1 = v then t.2 else 0) + f v) (l.map σ) =
        (if t.1 ∈ l then t.2 * σ t.1 else 0) + Fact.dot (l.map f) (l.map σ) := by
      intro f l hl
      induction l with
      | nil => simp [Fact.dot]
      | cons a l ih2 =>
        obtain ⟨ha, hl⟩ := List.nodup_cons.1 hl
        simp only [List.map_cons, Fact.dot, ih2 hl, List.mem_cons]
        by_cases e : t.1 = a
        · rw [e]
          simp only [ha, if_true, if_false, true_or]
          ring
        · simp only [e, if_false, false_or]
          ring
    have e2 : (vs.map fun v => (((t :: ts).filter fun u => u.1 = v).map Prod.snd).sum) =
        vs.map fun v => (if t.1 = v then t.2 else 0) +
          ((ts.filter fun u => u.1 = v).map Prod.snd).sum := by
      apply List.map_congr_left
      intro v _
      rw [List.filter_cons]
      split
      · rename_i hv
        simp only [decide_eq_true_eq] at hv
        simp [hv]
      · rename_i hv
        simp only [decide_eq_true_eq] at hv
        simp [hv]
    rw [e2, key _ vs hvs, if_pos ht, ih fun u hu => h u (by simp [hu])]
    simp

theorem eval_codeExpr {vs : List LpVar} (hvs : vs.Nodup) {e : LinExpr}
    (h : ∀ t ∈ e.terms, t.1 ∈ vs) (σ : LpVar → ℚ) :
    (codeExpr vs e).eval (vs.map σ) = e.eval σ := by
  rw [codeExpr, Fact.eval, dot_terms hvs h, LinExpr.eval]

theorem mem_of_at! {K V : Type} [DecidableEq K] {d : Dict K V} {k : K} {v : V}
    (h : Dict.at! d k = .ok v) : (k, v) ∈ d := by
  unfold Dict.at! at h
  split at h
  · rename_i w hw; cases h; exact Dict.mem_of_get? hw
  · cases h

/-- the values of the variables -/
def Built.vec (b : Built) (σ : LpVar → ℚ) : List ℚ := b.allVars.map σ

theorem mem_delayVars {b : Built} {v : LpVar} : v ∈ b.dv.flatMap (fun p => p.2.filterMap
    fun q => (delayAt b.dv p.1 q.1).toOption) ↔ ∃ j s, delayAt b.dv j s = .ok v := by
  constructor
  · intro h
    obtain ⟨p, hp, h⟩ := List.mem_flatMap.1 h
    obtain ⟨q, hq, h⟩ := List.mem_filterMap.1 h
    refine ⟨p.1, q.1, ?_⟩
    cases hd : delayAt b.dv p.1 q.1 with
    | error e => rw [hd] at h; cases h
    | ok w => rw [hd] at h; cases h; rfl
  · rintro ⟨j, s, h⟩
    have h' := h
    unfold delayAt at h'
    obtain ⟨d1, h1, h2⟩ := bind_ok h'
    refine List.mem_flatMap.2 ⟨(j, d1), ?_, List.mem_filterMap.2 ⟨(s, v), ?_, by simp [h, Except.toOption]⟩⟩
    · exact mem_of_at! h1
    · exact mem_of_at! h2

theorem mem_orderVars {b : Built} {v : LpVar} : v ∈ (b.y.flatMap fun p => p.2.flatMap fun q =>
    q.2.flatMap fun r => r.2.filterMap fun s => (at4 b.y p.1 q.1 r.1 s.1).toOption) ↔
    ∃ a a' c d, at4 b.y a a' c d = .ok v := by
  constructor
  · intro h
    obtain ⟨p, hp, h⟩ := List.mem_flatMap.1 h
    obtain ⟨q, hq, h⟩ := List.mem_flatMap.1 h
    obtain ⟨r, hr, h⟩ := List.mem_flatMap.1 h
    obtain ⟨s, hs, h⟩ := List.mem_filterMap.1 h
    refine ⟨p.1, q.1, r.1, s.1, ?_⟩
    cases hd : at4 b.y p.1 q.1 r.1 s.1 with
    | error e => rw [hd] at h; cases h
    | ok w => rw [hd] at h; cases h; rfl
  · rintro ⟨a, a', c, d, h⟩
    have h' := h
    unfold at4 at h'
    obtain ⟨d1, h1, h'⟩ := bind_ok h'
    obtain ⟨d2, h2, h'⟩ := bind_ok h'
    obtain ⟨d3, h3, h4⟩ := bind_ok h'
    exact List.mem_flatMap.2 ⟨(a, d1), mem_of_at! h1, List.mem_flatMap.2 ⟨(a', d2),
      mem_of_at! h2, List.mem_flatMap.2 ⟨(c, d3), mem_of_at! h3, List.mem_filterMap.2
      ⟨(d, v), mem_of_at! h4, by simp [h, Except.toOption]⟩⟩⟩⟩

theorem admissible_iff {b : Built} {σ : LpVar → ℚ} :
    Admissible b σ ↔ ∀ v ∈ b.allVars, InDomain v (σ v) := by
  unfold Built.allVars
  constructor
  · rintro h v hv
    rcases List.mem_append.1 hv with hv | hv
    · obtain ⟨j, s, h'⟩ := mem_delayVars.1 hv
      exact h.1 j s v h'
    · obtain ⟨a, a', c, d, h'⟩ := mem_orderVars.1 hv
      exact h.2 a a' c d v h'
  · intro h
    exact ⟨fun j s v hv => h v (List.mem_append_left _ (mem_delayVars.2 ⟨j, s, hv⟩)),
      fun a a' c d v hv => h v (List.mem_append_right _ (mem_orderVars.2 ⟨a, a', c, d, hv⟩))⟩

theorem vec_get {b : Built} {σ : LpVar → ℚ} {i : ℕ} {v : LpVar} (h : b.allVars[i]? = some v) :
    (b.vec σ)[i]?.getD 0 = σ v := by
  simp [Built.vec, h]

/-- the facts and the integrality of a problem say that an assignment is feasible -/
theorem feasible_iff {b : Built} (hv : varsOK b = true) {σ : LpVar → ℚ} :
    Feasible b σ ↔ (∀ f ∈ b.code.facts, 0 ≤ f.eval (b.vec σ)) ∧
      LpTree.Whole b.code.ints (b.vec σ) := by
  simp only [varsOK, Bool.and_eq_true, decide_eq_true_eq, List.all_eq_true] at hv
  obtain ⟨⟨hn, -⟩, hc⟩ := hv
  have hint : ∀ i : ℕ, b.code.ints[i]? = some true ↔ ∃ v, b.allVars[i]? = some v ∧ v.cat = .integer := by
    intro i
    simp [Built.code]
  have hcon : (∀ c ∈ b.prob.constraints, ∀ f ∈ constraintFacts b.allVars c.2, 0 ≤ f.eval (b.vec σ)) ↔
      Satisfies b.prob σ := by
    apply forall₂_congr
    intro c hcm
    have he := eval_codeExpr hn (e := c.2.expr) (fun t ht => hc c hcm t ht) σ
    unfold constraintFacts Constraint.Holds
    rw [Built.vec]
    cases c.2.sense <;> simp only [List.mem_cons, List.not_mem_nil, or_false,
      forall_eq, forall_eq_or_imp, Fact.eval_neg, he]
    · constructor <;> intro h <;> linarith
    · constructor
      · rintro ⟨h1, h2⟩; linarith
      · intro h; rw [h]; simp
  have hb : (∀ f ∈ boundFacts b.allVars, 0 ≤ f.eval (b.vec σ)) ↔
      ∀ v ∈ b.allVars, v.low ≤ σ v ∧ σ v ≤ v.up := by
    have hone : ∀ i v, b.allVars[i]? = some v → ((∀ f ∈ ([(Fact.unit i, -v.low),
        Fact.neg (Fact.unit i, -v.up)] : List Fact), 0 ≤ Fact.eval f (b.vec σ)) ↔
        v.low ≤ σ v ∧ σ v ≤ v.up) := by
      intro i v hi
      simp only [List.mem_cons, List.not_mem_nil, or_false, forall_eq_or_imp, forall_eq,
        Fact.eval_neg]
      rw [Fact.eval, Fact.eval, Fact.dot_unit, vec_get hi]
      constructor <;> rintro ⟨h1, h2⟩ <;> constructor <;> linarith
    constructor
    · intro h v hv
      obtain ⟨i, hi⟩ := List.getElem?_of_mem hv
      have hil : i < b.allVars.length := by
        rw [List.getElem?_eq_some_iff] at hi; exact hi.1
      apply (hone i v hi).1
      intro f hf
      apply h f
      unfold boundFacts
      refine List.mem_flatMap.2 ⟨i, List.mem_range.2 hil, ?_⟩
      rw [hi]; exact hf
    · intro h f hf
      unfold boundFacts at hf
      obtain ⟨i, -, hf⟩ := List.mem_flatMap.1 hf
      split at hf
      · rename_i v hi
        exact (hone i v hi).2 (h v (List.mem_of_getElem? hi)) f hf
      · cases hf
  have hall : (∀ f ∈ b.code.facts, 0 ≤ f.eval (b.vec σ)) ↔
      (∀ v ∈ b.allVars, v.low ≤ σ v ∧ σ v ≤ v.up) ∧ Satisfies b.prob σ := by
    rw [← hb, ← hcon]
    simp only [Built.code, List.mem_append, List.mem_flatMap]
    constructor
    · intro h
      exact ⟨fun f hf => h f (.inl hf), fun c hc f hf => h f (.inr ⟨c, hc, hf⟩)⟩
    · rintro ⟨h1, h2⟩ f (hf | ⟨c, hc, hf⟩)
      · exact h1 f hf
      · exact h2 c hc f hf
  rw [hall]
  constructor
  · rintro ⟨ha, hs⟩
    rw [admissible_iff] at ha
    refine ⟨⟨fun v hv => ⟨(ha v hv).1, (ha v hv).2.1⟩, hs⟩, fun i hi => ?_⟩
    obtain ⟨v, hv, hcat⟩ := (hint i).1 hi
    rw [vec_get hv]
    exact (ha v (List.mem_of_getElem? hv)).2.2 hcat
  · rintro ⟨⟨h1, h2⟩, h3⟩
    refine ⟨admissible_iff.2 fun v hv => ⟨(h1 v hv).1, (h1 v hv).2, fun hcat => ?_⟩, h2⟩
    obtain ⟨i, hi⟩ := List.getElem?_of_mem hv
    have := h3 i ((hint i).2 ⟨v, hi, hcat⟩)
    rwa [vec_get hi] at this

theorem objective_eval {b : Built} (hv : varsOK b = true) (σ : LpVar → ℚ) :
    b.code.objective.eval (b.vec σ) = b.prob.objective.eval σ := by
  simp only [varsOK, Bool.and_eq_true, decide_eq_true_eq, List.all_eq_true] at hv
  exact eval_codeExpr hv.1.1 (fun t ht => hv.1.2 t ht) σ

/-- the assignment with given values -/
def Built.assign (b : Built) (x : List ℚ) (v : LpVar) : ℚ := x[b.allVars.idxOf v]?.getD 0

theorem vec_assign {b : Built} (hn : b.allVars.Nodup) {x : List ℚ} (hx : x.length = b.allVars.length) :
    b.vec (b.assign x) = x := by
  apply List.ext_getElem?
  intro i
  unfold Built.vec
  rw [List.getElem?_map]
  cases hi : b.allVars[i]? with
  | none =>
    have : b.allVars.length ≤ i := List.getElem?_eq_none_iff.1 hi
    simp [List.getElem?_eq_none_iff.2 (hx ▸ this : x.length ≤ i)]
  | some v =>
    obtain ⟨hil, hiv⟩ := List.getElem?_eq_some_iff.1 hi
    have : b.allVars.idxOf v = i := by
      rw [← hiv]; exact hn.idxOf_getElem i hil
    simp only [Option.map_some, Built.assign, this]
    rw [List.getElem?_eq_getElem (by omega)]
    rfl

end Verif
