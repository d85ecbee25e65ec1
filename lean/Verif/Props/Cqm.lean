import Verif.Model.Cqm
import Verif.Props.Results
import Verif.Props.Reported

/-!
# The constrained quadratic model: C21
-/

namespace Verif

/-- `σ` is a feasible point of the integer program: domains and constraints -/
def IlpFeasible (p : Problem) (σ : LpVar → ℚ) : Prop :=
  (∀ v ∈ p.vars, InDomain v (σ v)) ∧ Satisfies p σ

/-- the point of the integer program that belongs to a point of the quadratic model -/
def shifted (x : String → ℚ) (v : LpVar) : ℚ := x v.name + v.low

/-! ## Lemmas -/

/-- what `vars_trans` holds -/
structure TransOK (p : Problem) (tr : List (LpVar × CqmVar × ℚ)) : Prop where
  var : ∀ v ∈ p.vars, ∃ c, cqmVar v = .ok c ∧ Dict.get? tr v = some c
  entry : ∀ t ∈ tr, t.1 ∈ p.vars ∧ cqmVar t.1 = .ok t.2

theorem cqmVars_ok {p : Problem} {tr : List (LpVar × CqmVar × ℚ)} (h : cqmVars p = .ok tr) :
    TransOK p tr := by
  have hf := mapPy_forall₂ h
  have hkeys : Dict.keys tr = p.vars := by
    clear h
    revert hf
    generalize p.vars = l
    intro hf
    induction hf with
    | nil => rfl
    | cons h1 _ ih =>
      obtain ⟨c, _, h1⟩ := bind_ok h1
      cases h1
      simp only [Dict.keys, List.map_cons] at ih ⊢
      rw [ih]
  have hnd : (Dict.keys tr).Nodup := by rw [hkeys]; exact List.nodup_dedup _
  constructor
  · intro v hv
    obtain ⟨t, ht, h1⟩ := forall₂_left hf hv
    obtain ⟨c, hc, h1⟩ := bind_ok h1
    cases h1
    exact ⟨c, hc, Dict.get?_of_mem hnd ht⟩
  · intro t ht
    obtain ⟨v, hv, h1⟩ := forall₂_right hf ht
    obtain ⟨c, hc, h1⟩ := bind_ok h1
    cases h1
    exact ⟨hv, hc⟩

theorem cqmVar_spec {v : LpVar} {c : CqmVar × ℚ} (h : cqmVar v = .ok c) :
    c.1.label = v.name ∧ c.2 = v.low ∧ v.cat = .integer ∧
      ∀ x, (∃ n : ℤ, v.low = n) → (c.1.Allows x ↔ InDomain v (x + v.low)) := by
  unfold cqmVar at h
  split at h
  · rename_i hb
    cases h
    simp only [isBinary, Bool.and_eq_true, decide_eq_true_eq] at hb
    obtain ⟨⟨h1, h2⟩, h3⟩ := hb
    refine ⟨rfl, h2.symm, h1, fun x _ => ?_⟩
    simp only [CqmVar.Allows, if_true, InDomain, h1, h2, h3, true_implies, add_zero]
    constructor
    · rintro (rfl | rfl)
      · exact ⟨le_refl _, by norm_num, 0, by norm_num⟩
      · exact ⟨by norm_num, le_refl _, 1, by norm_num⟩
    · rintro ⟨h4, h5, n, rfl⟩
      have h4' : (0 : ℤ) ≤ n := by exact_mod_cast h4
      have h5' : n ≤ (1 : ℤ) := by exact_mod_cast h5
      have : n = 0 ∨ n = 1 := by omega
      rcases this with rfl | rfl
      · exact .inl (by norm_num)
      · exact .inr (by norm_num)
  · split at h
    · rename_i hc
      split at h
      · cases h
      · cases h
        refine ⟨rfl, rfl, hc, ?_⟩
        rintro x ⟨m, hm⟩
        simp only [CqmVar.Allows, Bool.false_eq_true, if_false, InDomain, hc, true_implies]
        constructor
        · rintro ⟨h1, h2, n, rfl⟩
          exact ⟨by linarith, by linarith, n + m, by rw [hm]; push_cast; ring⟩
        · rintro ⟨h1, h2, n, hn⟩
          exact ⟨by linarith, by linarith, n - m, by push_cast; rw [← hm]; linarith⟩
    · cases h

theorem cqmSum_eval {p : Problem} {tr : List (LpVar × CqmVar × ℚ)} (ht : TransOK p tr)
    {items : List (LpVar × ℚ)} (hi : ∀ t ∈ items, t.1 ∈ p.vars) {e : CqmExpr}
    (h : cqmSum tr items = .ok e) (x : String → ℚ) :
    e.eval x = (items.map fun t => t.2 * shifted x t.1).sum := by
  have key : ∀ (items : List (LpVar × ℚ)) (e0 : CqmExpr), (∀ t ∈ items, t.1 ∈ p.vars) →
      loop items (fun (e : CqmExpr) t => do
        let c ← Dict.at! tr t.1
        .ok ⟨e.terms ++ [(c.1.label, t.2)], e.const + t.2 * c.2⟩) e0 = .ok e →
      e.eval x = e0.eval x + (items.map fun t => t.2 * shifted x t.1).sum := by
    intro items
    induction items with
    | nil => intro e0 _ h; simp only [loop, Except.ok.injEq] at h; subst h; simp
    | cons t items ih =>
      intro e0 hi h
      obtain ⟨c, hc, hg⟩ := ht.var _ (hi t List.mem_cons_self)
      obtain ⟨h1, h2, _, _⟩ := cqmVar_spec hc
      simp only [loop, Dict.at!_ok.2 hg, bind, Except.bind] at h
      rw [ih _ (fun t ht => hi t (List.mem_cons_of_mem _ ht)) h]
      simp only [CqmExpr.eval, List.map_append, List.sum_append, List.map_cons, List.map_nil,
        List.sum_cons, List.sum_nil, shifted, h1, h2]
      ring
  rw [key items _ hi h]
  simp [CqmExpr.eval]

/-! ## C21 -/

/-- **C21.** If the conversion succeeds and the lower bounds are integers, a point of the quadratic
model is feasible iff the point shifted by the lower bounds is a feasible point of the integer
program, and the objectives agree. -/
theorem C21_points {p : Problem} {q : Cqm} (h : convertToCqm p = .ok q)
    (hlow : ∀ v ∈ p.vars, ∃ n : ℤ, v.low = n) (x : String → ℚ) :
    (q.Feasible x ↔ IlpFeasible p (shifted x)) ∧
    q.objectiveAt x = p.objective.eval (shifted x) := by
  unfold convertToCqm at h
  obtain ⟨tr, htr, h⟩ := bind_ok h
  obtain ⟨cs, hcs, h⟩ := bind_ok h
  obtain ⟨o, ho, h⟩ := bind_ok h
  split at h
  · cases h
  · cases h
    have T := cqmVars_ok htr
    have hcs' := mapPy_forall₂ hcs
    constructor
    · unfold Cqm.Feasible IlpFeasible Satisfies
      refine and_congr ?_ ?_
      · simp only [List.forall_mem_map]
        constructor
        · intro h v hv
          obtain ⟨c, hc, hg⟩ := T.var v hv
          obtain ⟨h1, _, _, h4⟩ := cqmVar_spec hc
          have := h _ (Dict.mem_of_get? hg)
          simp only [h1] at this
          exact (h4 _ (hlow v hv)).1 this
        · intro h t ht
          obtain ⟨hv, hc⟩ := T.entry t ht
          obtain ⟨h1, _, _, h4⟩ := cqmVar_spec hc
          rw [h1]
          exact (h4 _ (hlow _ hv)).2 (h _ hv)
      · have hone : ∀ nc ∈ p.constraints, ∀ c, cqmConstraint tr nc = .ok c →
            (c.Holds x ↔ nc.2.Holds (shifted x)) := by
          intro nc hnc c hc
          unfold cqmConstraint at hc
          obtain ⟨e, he, hc⟩ := bind_ok hc
          split at hc
          · cases hc
          · cases hc
            have hev := cqmSum_eval T (fun t ht => term_vars hnc ht) he x
            simp only [CqmConstraint.Holds, Constraint.Holds, hev, LinExpr.eval]
            cases nc.2.sense <;> simp only <;> constructor <;> intro h <;> linarith
        constructor
        · intro h nc hnc
          obtain ⟨c, hc, h1⟩ := forall₂_left hcs' hnc
          exact (hone nc hnc c h1).1 (h c hc)
        · intro h c hc
          obtain ⟨nc, hnc, h1⟩ := forall₂_right hcs' hc
          exact (hone nc hnc c h1).2 (h nc hnc)
    · unfold cqmObjective at ho
      unfold Cqm.objectiveAt
      split at ho
      · rename_i h0
        cases ho
        simp [LinExpr.eval, h0.1, h0.2]
      · obtain ⟨e, he, ho⟩ := bind_ok ho
        split at ho
        · cases ho
        · cases ho
          have hev := cqmSum_eval T (fun t ht => obj_vars ht) he x
          simp only [CqmExpr.eval, LinExpr.eval] at hev ⊢
          linarith

/-- **C21**, converse direction: if different variables have different names, every feasible point
of the integer program comes from a feasible point of the quadratic model. -/
theorem C21_onto {p : Problem} {q : Cqm} (h : convertToCqm p = .ok q)
    (hlow : ∀ v ∈ p.vars, ∃ n : ℤ, v.low = n)
    (hname : ∀ v ∈ p.vars, ∀ w ∈ p.vars, v.name = w.name → v = w) {σ : LpVar → ℚ}
    (hσ : IlpFeasible p σ) :
    ∃ x, q.Feasible x ∧ (∀ v ∈ p.vars, shifted x v = σ v) ∧
      q.objectiveAt x = p.objective.eval σ := by
  classical
  let x : String → ℚ := fun s =>
    match p.vars.find? fun v => v.name = s with
    | some v => σ v - v.low
    | .none => 0
  have hx : ∀ v ∈ p.vars, shifted x v = σ v := by
    intro v hv
    unfold shifted
    simp only [x]
    cases hf : p.vars.find? fun w => w.name = v.name with
    | none =>
      rw [List.find?_eq_none] at hf
      have := hf v hv
      simp at this
    | some w =>
      have hw := List.mem_of_find?_eq_some hf
      have hn : w.name = v.name := by simpa using List.find?_some hf
      rw [hname w hw v hv hn]
      simp
  have hexpr : ∀ e : LinExpr, (∀ t ∈ e.terms, t.1 ∈ p.vars) → e.eval (shifted x) = e.eval σ := by
    intro e he
    unfold LinExpr.eval
    congr 2
    apply List.map_congr_left
    intro t ht
    rw [hx _ (he t ht)]
  obtain ⟨h1, h2⟩ := C21_points h hlow x
  refine ⟨x, h1.2 ⟨fun v hv => by rw [hx v hv]; exact hσ.1 v hv, fun nc hnc => ?_⟩, hx, ?_⟩
  · have := hσ.2 nc hnc
    unfold Constraint.Holds at this ⊢
    rw [hexpr _ fun t ht => term_vars hnc ht]
    exact this
  · rw [h2, hexpr _ fun t ht => obj_vars ht]

/-- **C21**, raw samples: if all lower bounds are 0, as in every problem built by
`create_linear_problem`, a sample of the quadratic model may be read as a sample of the integer
program. -/
theorem C21_built {ts : TrainSets} {tt : Timetable} {dmax : ℚ} {cat : Cat} {b : Built}
    (hb : buildProblem ts tt dmax cat = .ok b) {q : Cqm} (h : convertToCqm b.prob = .ok q)
    (x : String → ℚ) :
    (q.Feasible x ↔ IlpFeasible b.prob fun v => x v.name) ∧
    q.objectiveAt x = b.prob.objective.eval fun v => x v.name := by
  have P := parts hb
  have h0 : ∀ v ∈ b.prob.vars, v.low = 0 := by
    intro v hv
    rcases vars_stored hb hv with ⟨j, s, hd⟩ | ⟨a, c, d, e, ho⟩
    · rw [delayAt_ok, delayVariables_find P.hdv] at hd
      rw [hd.2]; rfl
    · exact (orderVariables_isOrderVar P.hy ho).2.1
  have hsh : ∀ v ∈ b.prob.vars, shifted x v = x v.name := by
    intro v hv; unfold shifted; rw [h0 v hv, add_zero]
  obtain ⟨h1, h2⟩ := C21_points h (fun v hv => ⟨0, by rw [h0 v hv]; norm_num⟩) x
  have hexpr : ∀ e : LinExpr, (∀ t ∈ e.terms, t.1 ∈ b.prob.vars) →
      e.eval (shifted x) = e.eval fun v => x v.name := by
    intro e he
    unfold LinExpr.eval
    congr 2
    apply List.map_congr_left
    intro t ht
    rw [hsh _ (he t ht)]
  constructor
  · rw [h1]
    unfold IlpFeasible Satisfies
    refine and_congr (forall₂_congr fun v hv => by rw [hsh v hv])
      (forall₂_congr fun nc hnc => ?_)
    unfold Constraint.Holds
    rw [hexpr _ fun t ht => term_vars hnc ht]
  · rw [h2, hexpr _ fun t ht => obj_vars ht]

/-- when the conversion succeeds -/
theorem C21_succeeds {p : Problem}
    (hcat : ∀ v ∈ p.vars, v.cat = .integer ∧ v.low ≤ v.up)
    (hname : ∀ v ∈ p.vars, ∀ w ∈ p.vars, v.name = w.name → v = w)
    (hc : ∀ nc ∈ p.constraints, nc.2.expr.terms ≠ [])
    (ho : p.objective.terms = [] → p.objective.const = 0) : ∃ q, convertToCqm p = .ok q := by
  have hvar : ∀ v ∈ p.vars, ∃ c, cqmVar v = .ok c := by
    intro v hv
    obtain ⟨h1, h2⟩ := hcat v hv
    unfold cqmVar
    by_cases hb : isBinary v = true
    · exact ⟨_, by rw [if_pos hb]⟩
    · have : ¬ v.up - v.low < 0 := by linarith
      exact ⟨_, by rw [if_neg hb, if_pos h1, if_neg this]⟩
  choose! g hg using hvar
  have htr : cqmVars p = .ok (p.vars.map fun v => (v, g v)) := by
    unfold cqmVars
    exact mapPy_of fun v hv => by rw [hg v hv]; rfl
  have T := cqmVars_ok htr
  have hsum : ∀ items : List (LpVar × ℚ), (∀ t ∈ items, t.1 ∈ p.vars) →
      ∃ e, cqmSum (p.vars.map fun v => (v, g v)) items = .ok e := by
    intro items hi
    unfold cqmSum
    generalize (⟨[], 0⟩ : CqmExpr) = e0
    induction items generalizing e0 with
    | nil => exact ⟨e0, rfl⟩
    | cons t items ih =>
      obtain ⟨c, _, hgt⟩ := T.var _ (hi t List.mem_cons_self)
      simp only [loop, Dict.at!_ok.2 hgt, bind, Except.bind]
      exact ih (fun t ht => hi t (List.mem_cons_of_mem _ ht)) _
  have hcon : ∀ nc ∈ p.constraints, ∃ c,
      cqmConstraint (p.vars.map fun v => (v, g v)) nc = .ok c := by
    intro nc hnc
    obtain ⟨e, he⟩ := hsum nc.2.expr.terms fun t ht => term_vars hnc ht
    exact ⟨_, by unfold cqmConstraint; rw [he]; simp only [bind, Except.bind, if_neg (hc nc hnc)]; rfl⟩
  choose! gc hgc using hcon
  have hobj : ∃ o, cqmObjective (p.vars.map fun v => (v, g v)) p.objective = .ok o := by
    unfold cqmObjective
    by_cases h0 : p.objective.terms = []
    · exact ⟨_, by rw [if_pos ⟨h0, ho h0⟩]⟩
    · obtain ⟨e, he⟩ := hsum p.objective.terms fun t ht => obj_vars ht
      exact ⟨_, by rw [if_neg fun h => h0 h.1, he]; simp only [bind, Except.bind, if_neg h0]; rfl⟩
  obtain ⟨o, ho⟩ := hobj
  unfold convertToCqm
  rw [htr]
  simp only [bind, Except.bind, mapPy_of hgc, ho]
  rw [if_neg]
  · exact ⟨_, rfl⟩
  · rintro ⟨a, ha, c, hc, hl, hne⟩
    obtain ⟨va, ca⟩ := T.entry a ha
    obtain ⟨vc, cc⟩ := T.entry c hc
    have := hname _ va _ vc (by rw [← (cqmVar_spec ca).1, ← (cqmVar_spec cc).1]; exact hl)
    rw [this, cc] at ca
    exact hne (congrArg Prod.fst (Except.ok.inj ca)).symm

/-- the conversion of a built problem with integer delays succeeds if different variables have
different names -/
theorem C21_built_succeeds {ts : TrainSets} {tt : Timetable} {dmax : ℚ} {b : Built}
    (hb : buildProblem ts tt dmax .integer = .ok b) (h0 : 0 ≤ dmax)
    (hname : ∀ v ∈ b.prob.vars, ∀ w ∈ b.prob.vars, v.name = w.name → v = w) :
    ∃ q, convertToCqm b.prob = .ok q := by
  have P := parts hb
  refine C21_succeeds ?_ hname ?_ ?_
  · intro v hv
    rcases vars_stored hb hv with ⟨j, s, hd⟩ | ⟨a, c, d, e, ho⟩
    · rw [delayAt_ok, delayVariables_find P.hdv] at hd
      rw [hd.2]; exact ⟨rfl, h0⟩
    · obtain ⟨_, h1, h2, h3⟩ := orderVariables_isOrderVar P.hy ho
      exact ⟨h3, by rw [h1, h2]; norm_num⟩
  · intro nc hnc hnil
    obtain ⟨c1, c2, c3, c4, c5, c6, h1, h2, h3, h4, h5, h6, he, _⟩ := built_constraints hb
    rw [he] at hnc
    obtain ⟨c, hc, rfl⟩ := List.mem_map.1 hnc
    simp only [List.mem_append] at hc
    have : HasVar c.2.expr := by
      rcases hc with ((((hn | hn) | hn) | hn) | hn) | hn
      · exact (minimalSpan_origin c1 h1 c hn).2.2
      · exact (minimalStay_origin (y := b.y) c2 h2 c hn).2.2
      · exact (singleLine_origin c3 h3 c hn).2.2
      · exact (trackOccupation_origin c4 h4 c hn).2.2
      · exact (rollingStockCirc_origin (y := b.y) c5 h5 c hn).2.2
      · exact (switchOccupation_origin c6 h6 c hn).2.2
    obtain ⟨v, t, ht, _⟩ := this
    simp only at hnil
    rw [hnil] at ht
    cases ht
  · intro _
    have := (C17_objective hb (σ := fun _ => 0) (d := fun _ _ => 0)
      fun j s => ⟨fun _ _ => rfl, fun _ => rfl⟩).1
    simpa [LinExpr.eval, TotalDelay] using this

/-- a variable with lower bound 1 -/
def exampleLow : LpVar := ⟨.delay (.int 1) (.int 1), "x", 1, 3, .integer⟩

/-- `x ≤ 1`, minimise `x` -/
def exampleLowProblem : Problem :=
  ⟨[("c", ⟨(LinExpr.var exampleLow).sub (.num 1), .le⟩)], .var exampleLow⟩

/-- With a lower bound other than 0 a raw sample must not be read as a sample of the integer
program: the quadratic model's infeasible point `x = 1` (meaning 2) is feasible when read raw, and
its feasible point `x = 0` (meaning 1) is out of bounds. -/
theorem C21_raw_false : ∃ p q x, convertToCqm p = .ok q ∧ (∀ v ∈ p.vars, ∃ n : ℤ, v.low = n) ∧
    ¬ (q.Feasible x ↔ IlpFeasible p fun v => x v.name) := by
  obtain ⟨q, hq⟩ : ∃ q, convertToCqm exampleLowProblem = .ok q :=
    C21_succeeds (by decide +kernel) (by decide +kernel) (by decide +kernel) (by decide +kernel)
  have hlow : ∀ v ∈ exampleLowProblem.vars, ∃ n : ℤ, v.low = n := by
    intro v hv
    have : v = exampleLow := by
      revert v; decide +kernel
    subst this
    exact ⟨1, by norm_num [exampleLow]⟩
  refine ⟨exampleLowProblem, q, fun _ => 1, hq, hlow, fun h => ?_⟩
  have h1 : IlpFeasible exampleLowProblem (shifted fun _ => 1) := by
    rw [← (C21_points hq hlow _).1, h]
    refine ⟨fun v hv => ?_, fun nc hnc => ?_⟩
    · have : v = exampleLow := by revert v; decide +kernel
      subst this
      exact ⟨by norm_num [exampleLow], by norm_num [exampleLow], fun _ => ⟨1, by norm_num⟩⟩
    · have : nc = ("c", ⟨(LinExpr.var exampleLow).sub (.num 1), .le⟩) := by
        simpa [exampleLowProblem] using hnc
      subst this
      simp [Constraint.Holds]
  have h2 := h1.2 ("c", ⟨(LinExpr.var exampleLow).sub (.num 1), .le⟩) (by simp [exampleLowProblem])
  simp [Constraint.Holds, shifted, exampleLow] at h2
  norm_num at h2

/-- the hypotheses are met by the small example, and its solution is found among the points of the
quadratic model -/
example : ∃ b q x, buildProblem Small.ts Small.tt 10 .integer = .ok b ∧
    convertToCqm b.prob = .ok q ∧ q.Feasible x ∧ q.objectiveAt x = 12 / 10 := by
  obtain ⟨b, hb, hf⟩ := Small.feasible
  have hchk : (match buildProblem Small.ts Small.tt 10 .integer with
      | .ok b => decide (∀ v ∈ b.prob.vars, v.cat = .integer ∧ v.low ≤ v.up) &&
          decide (∀ v ∈ b.prob.vars, ∀ w ∈ b.prob.vars, v.name = w.name → v = w) &&
          decide (∀ nc ∈ b.prob.constraints, nc.2.expr.terms ≠ []) &&
          decide (∀ v ∈ b.prob.vars, v.low = 0) &&
          decide (b.prob.objective.const = 0) &&
          decide (b.prob.objective.eval Small.σ = 12 / 10)
      | .error _ => false) = true := by decide +kernel
  rw [hb] at hchk
  simp only [Bool.and_eq_true, decide_eq_true_eq] at hchk
  obtain ⟨⟨⟨⟨⟨h1, h2⟩, h3⟩, h4⟩, h5⟩, h6⟩ := hchk
  obtain ⟨q, hq⟩ := C21_succeeds h1 h2 h3 fun _ => h5
  have hI : IlpFeasible b.prob Small.σ := by
    refine ⟨fun v hv => ?_, hf.sat⟩
    rcases vars_stored hb hv with ⟨j, s, hd⟩ | ⟨a, c, d, e, ho⟩
    · exact hf.adm.delays j s v hd
    · exact hf.adm.orders a c d e v ho
  obtain ⟨x, hx1, _, hx3⟩ := C21_onto hq (fun v hv => ⟨0, by rw [h4 v hv]; norm_num⟩) h2 hI
  exact ⟨b, q, x, hb, hq, hx1, hx3.trans h6⟩

end Verif
