import Verif.Proofs.Objective

/-!
# Names of the constraints and variables in them
-/

namespace Verif

/-- all variables of the expression satisfy `S` -/
def UsesOnly (S : LpVar → Prop) (e : LinExpr) : Prop := ∀ t ∈ e.terms, S t.1

/-- everything emitted satisfies `Q` -/
def Emits (Q : Named → Prop) (m : Py (List Named)) : Prop := ∀ cs, m = .ok cs → ∀ c ∈ cs, Q c

section
variable {S : LpVar → Prop} {Q : Named → Prop}

theorem usesOnly_num (c : ℚ) : UsesOnly S (.num c) := by simp [UsesOnly, LinExpr.num]

theorem usesOnly_var {v : LpVar} (h : S v) : UsesOnly S (.var v) := by
  simpa [UsesOnly, LinExpr.var] using h

theorem mem_addTerm {t : List (LpVar × ℚ)} {v x : LpVar} {c : ℚ} :
    (∃ z ∈ LinExpr.addTerm t v c, z.1 = x) ↔ x = v ∨ ∃ z ∈ t, z.1 = x := by
  induction t with
  | nil => simp [LinExpr.addTerm, eq_comm]
  | cons p t ih =>
    obtain ⟨v', c'⟩ := p
    simp only [LinExpr.addTerm]
    split
    · rename_i h; subst h
      simp only [List.mem_cons, exists_eq_or_imp]
      constructor
      · rintro (h | h)
        · exact .inl h.symm
        · exact .inr (.inr h)
      · rintro (h | h | h)
        · exact .inl h.symm
        · exact .inl h
        · exact .inr h
    · simp only [List.mem_cons, exists_eq_or_imp, ih]
      tauto

theorem mem_foldl_addTerm {t u : List (LpVar × ℚ)} {x : LpVar} :
    (∃ z ∈ u.foldl (fun acc t => LinExpr.addTerm acc t.1 t.2) t, z.1 = x) ↔
      (∃ z ∈ t, z.1 = x) ∨ ∃ z ∈ u, z.1 = x := by
  induction u generalizing t with
  | nil => simp
  | cons p u ih =>
    rw [List.foldl_cons, ih, mem_addTerm]
    simp only [List.mem_cons, exists_eq_or_imp]
    constructor
    · rintro ((h | h) | h)
      · exact .inr (.inl h.symm)
      · exact .inl h
      · exact .inr (.inr h)
    · rintro (h | h | h)
      · exact .inl (.inr h)
      · exact .inl (.inl h.symm)
      · exact .inr h

/-- a variable occurs in an expression -/
def OccursIn (v : LpVar) (e : LinExpr) : Prop := ∃ z ∈ e.terms, z.1 = v

theorem usesOnly_iff {e : LinExpr} : UsesOnly S e ↔ ∀ v, OccursIn v e → S v := by
  constructor
  · rintro h v ⟨z, hz, rfl⟩; exact h z hz
  · intro h t ht; exact h t.1 ⟨t, ht, rfl⟩

theorem occursIn_num {v : LpVar} {c : ℚ} : ¬ OccursIn v (.num c) := by
  simp [OccursIn, LinExpr.num]

theorem occursIn_var {v w : LpVar} : OccursIn v (.var w) ↔ v = w := by
  simp [OccursIn, LinExpr.var, eq_comm]

theorem occursIn_add {v : LpVar} {e f : LinExpr} :
    OccursIn v (e.add f) ↔ OccursIn v e ∨ OccursIn v f := mem_foldl_addTerm

theorem occursIn_smul {v : LpVar} {c : ℚ} {e : LinExpr} :
    OccursIn v (.smul c e) ↔ c ≠ 0 ∧ OccursIn v e := by
  unfold LinExpr.smul OccursIn
  split
  · rename_i h; simp [h]
  · rename_i h; simp [h]

theorem occursIn_sub {v : LpVar} {e f : LinExpr} :
    OccursIn v (e.sub f) ↔ OccursIn v e ∨ OccursIn v f := by
  unfold LinExpr.sub
  rw [occursIn_add, occursIn_smul]; simp

theorem usesOnly_add {e f : LinExpr} (he : UsesOnly S e) (hf : UsesOnly S f) :
    UsesOnly S (e.add f) := by
  rw [usesOnly_iff] at *
  intro v hv
  rcases occursIn_add.1 hv with h | h
  · exact he v h
  · exact hf v h

theorem usesOnly_sub {e f : LinExpr} (he : UsesOnly S e) (hf : UsesOnly S f) :
    UsesOnly S (e.sub f) := by
  rw [usesOnly_iff] at *
  intro v hv
  rcases occursIn_sub.1 hv with h | h
  · exact he v h
  · exact hf v h

theorem usesOnly_smul {c : ℚ} {e : LinExpr} (he : UsesOnly S e) : UsesOnly S (.smul c e) := by
  rw [usesOnly_iff] at *
  intro v hv
  exact he v (occursIn_smul.1 hv).2

theorem emits_bind {α : Type} {m : Py α} {f : α → Py (List Named)}
    (h : ∀ a, m = .ok a → Emits Q (f a)) : Emits Q (m >>= f) := by
  intro cs hcs
  obtain ⟨a, ha, hf⟩ := bind_ok hcs
  exact h a ha cs hf

theorem emits_nil : Emits Q (.ok []) := by
  intro cs h c hc
  cases h; cases hc

theorem emits_single {c : Named} (h : Q c) : Emits Q (.ok [c]) := by
  intro cs hcs x hx
  cases hcs
  simp only [List.mem_singleton] at hx
  subst hx; exact h

theorem emits_error {e : PyErr} : Emits Q (.error e) := fun _ h => by cases h

theorem emits_collect {α : Type} {xs : List α} {f : α → Py (List Named)}
    (h : ∀ x ∈ xs, Emits Q (f x)) : Emits Q (collect xs f) := by
  intro cs hcs
  rw [collect_forall hcs]
  intro x hx a ha c hc
  exact h x hx a ha c hc

theorem emits_append {a b : Py (List Named)} (ha : Emits Q a) (hb : Emits Q b) :
    Emits Q (do let x ← a; let y ← b; .ok (x ++ y)) := by
  intro cs hcs c hc
  obtain ⟨x, hx, h⟩ := bind_ok hcs
  obtain ⟨z, hz, h⟩ := bind_ok h
  cases h
  rcases List.mem_append.1 hc with h | h
  · exact ha x hx c h
  · exact hb z hz c h

end

/-- a variable of the problem: a stored delay or order variable -/
def Stored (dv : DelayVars) (y : OrderVars) (v : LpVar) : Prop :=
  (∃ j s, delayAt dv j s = .ok v) ∨ ∃ a b c d, at4 y a b c d = .ok v

/-- the expression is not just a number -/
def HasVar (e : LinExpr) : Prop := ∃ v, OccursIn v e

theorem hasVar_var {v : LpVar} : HasVar (.var v) := ⟨v, occursIn_var.2 rfl⟩
theorem HasVar.addL {e f : LinExpr} (h : HasVar e) : HasVar (e.add f) :=
  h.imp fun _ h => occursIn_add.2 (.inl h)
theorem HasVar.addR {e f : LinExpr} (h : HasVar f) : HasVar (e.add f) :=
  h.imp fun _ h => occursIn_add.2 (.inr h)
theorem HasVar.subL {e f : LinExpr} (h : HasVar e) : HasVar (e.sub f) :=
  h.imp fun _ h => occursIn_sub.2 (.inl h)
theorem HasVar.subR {e f : LinExpr} (h : HasVar f) : HasVar (e.sub f) :=
  h.imp fun _ h => occursIn_sub.2 (.inr h)

/-- the constraint has a name with prefix `pre`, and uses variables, only stored ones -/
def Origin (dv : DelayVars) (y : OrderVars) (pre : String) (c : Named) : Prop :=
  (∃ rest, c.1 = pre ++ rest) ∧ UsesOnly (Stored dv y) c.2.expr ∧ HasVar c.2.expr

section
variable {ts : TrainSets} {tt : Timetable} {dmax : ℚ} {dv : DelayVars} {y : OrderVars}

theorem stored_delay {j s : Val} {v : LpVar} (h : delayAt dv j s = .ok v) : Stored dv y v :=
  .inl ⟨j, s, h⟩

theorem stored_order {a b c d : Val} {v : LpVar} (h : at4 y a b c d = .ok v) : Stored dv y v :=
  .inr ⟨a, b, c, d, h⟩

theorem usesOnly_getP {p q : OPath} {e : LinExpr} (h : getP y p q = .ok e) :
    UsesOnly (Stored dv y) e := by
  unfold getP at h
  split at h
  · obtain ⟨v, hv, h⟩ := bind_ok h; cases h
    exact usesOnly_var (stored_order hv)
  · obtain ⟨v, hv, h⟩ := bind_ok h; cases h
    exact usesOnly_sub (usesOnly_num 1) (usesOnly_var (stored_order hv))

theorem hasVar_getP {p q : OPath} {e : LinExpr} (h : getP y p q = .ok e) : HasVar e := by
  unfold getP at h
  split at h
  · obtain ⟨v, hv, h⟩ := bind_ok h; cases h
    exact hasVar_var
  · obtain ⟨v, hv, h⟩ := bind_ok h; cases h
    exact hasVar_var.subR

theorem hasVar3 {j jp s : Val} {e : LinExpr} (h : getY3 y j jp s = .ok e) : HasVar e :=
  hasVar_getP (p := (j, jp, oneStation, s)) (q := (jp, j, oneStation, s)) h

theorem hasVarIn {a j jp s : Val} {e : LinExpr} (h : getY4in y a j jp s = .ok e) : HasVar e :=
  hasVar_getP (p := (a, j, jp, s)) (q := (a, jp, j, s)) h

theorem uses3 {j jp s : Val} {e : LinExpr} (h : getY3 y j jp s = .ok e) :
    UsesOnly (Stored dv y) e :=
  usesOnly_getP (p := (j, jp, oneStation, s)) (q := (jp, j, oneStation, s)) h

theorem uses4 {j jp s sp : Val} {e : LinExpr} (h : getY4singleline y j jp s sp = .ok e) :
    UsesOnly (Stored dv y) e :=
  usesOnly_getP (p := (j, jp, s, sp)) (q := (jp, j, sp, s)) h

theorem usesIn {a j jp s : Val} {e : LinExpr} (h : getY4in y a j jp s = .ok e) :
    UsesOnly (Stored dv y) e :=
  usesOnly_getP (p := (a, j, jp, s)) (q := (a, jp, j, s)) h

theorem origin_ge {pre rest : String} {l r : LinExpr} (hl : UsesOnly (Stored dv y) l)
    (hr : UsesOnly (Stored dv y) r) (hv : HasVar l) : Origin dv y pre (pre ++ rest, .mkGE l r) :=
  ⟨⟨rest, rfl⟩, usesOnly_sub hl hr, hv.subL⟩

theorem origin_eq {pre rest : String} {l r : LinExpr} (hl : UsesOnly (Stored dv y) l)
    (hr : UsesOnly (Stored dv y) r) (hv : HasVar l) : Origin dv y pre (pre ++ rest, .mkEQ l r) :=
  ⟨⟨rest, rfl⟩, usesOnly_sub hl hr, hv.subL⟩

theorem minimalSpan_origin : Emits (Origin dv y "minimal_span_") (minimalSpan tt dv y ts dmax) := by
  have key : ∀ s sp j jp, Emits (Origin dv y "minimal_span_")
      (minimalSpanConstrain s sp j jp tt dv y ts dmax) := by
    intro s sp j jp
    unfold minimalSpanConstrain
    refine emits_bind fun lhs _ => emits_bind fun e _ => emits_bind fun h _ => ?_
    simp only
    split
    · refine emits_bind fun dl hdl => emits_bind fun dr hdr => emits_bind fun yv hyv => ?_
      exact emits_single (origin_ge (usesOnly_add (usesOnly_num _) (usesOnly_var (stored_delay hdl)))
        (usesOnly_sub (usesOnly_add (usesOnly_num _) (usesOnly_var (stored_delay hdr)))
          (usesOnly_smul (uses3 hyv))) hasVar_var.addR)
    · exact emits_nil
  unfold minimalSpan
  exact emits_collect fun e _ => emits_collect fun e2 _ => emits_collect fun js _ =>
    emits_collect fun p _ => emits_append (key _ _ _ _) (key _ _ _ _)

theorem singleLine_origin : Emits (Origin dv y "single_line_") (singleLine tt dv y ts dmax) := by
  have key : ∀ s sp j jp, Emits (Origin dv y "single_line_")
      (singleLineConstrain s sp j jp tt dv y ts dmax) := by
    intro s sp j jp
    unfold singleLineConstrain
    refine emits_bind fun lhs _ => emits_bind fun e _ => emits_bind fun h _ => ?_
    simp only
    split
    · refine emits_bind fun dl hdl => emits_bind fun dr hdr => emits_bind fun yv hyv => ?_
      exact emits_single (origin_ge (usesOnly_add (usesOnly_num _) (usesOnly_var (stored_delay hdl)))
        (usesOnly_sub (usesOnly_add (usesOnly_num _) (usesOnly_var (stored_delay hdr)))
          (usesOnly_smul (uses4 hyv))) hasVar_var.addR)
    · exact emits_nil
  unfold singleLine
  refine emits_collect fun e _ => emits_collect fun p _ => ?_
  split
  · exact emits_append (key _ _ _ _) (key _ _ _ _)
  · exact emits_nil

theorem minimalStay_origin : Emits (Origin dv y "minimal_stay_") (minimalStay tt dv ts) := by
  unfold minimalStay
  refine emits_collect fun j _ => emits_bind fun path _ => emits_collect fun s _ => ?_
  unfold minimalStayConstrain
  refine emits_bind fun path _ => emits_bind fun sp _ => ?_
  split
  · refine emits_bind fun dj hdj => ?_
    split
    · rename_i d hd
      refine emits_bind fun lhs _ => emits_bind fun dp hdp => emits_bind fun e _ =>
        emits_bind fun p _ => emits_bind fun st _ => ?_
      have hd' : delayAt dv j s = .ok d := by
        unfold delayAt
        rw [hdj]
        exact Dict.at!_ok.2 hd
      exact emits_single (origin_ge (usesOnly_add (usesOnly_var (stored_delay hd')) (usesOnly_num _))
        (usesOnly_add (usesOnly_add (usesOnly_add (usesOnly_var (stored_delay hdp)) (usesOnly_num _))
          (usesOnly_num _)) (usesOnly_num _)) hasVar_var.addL)
    · exact emits_nil
  · exact emits_nil

theorem keepTrainsOrder_origin {s j jp : Val} :
    Emits (Origin dv y "track_occupation_") (keepTrainsOrder s j jp y ts) := by
  unfold keepTrainsOrder
  refine emits_bind fun path _ => emits_bind fun sp _ => ?_
  split
  · exact emits_nil
  · split
    · refine emits_bind fun g _ => ?_
      split
      · refine emits_bind fun mo _ => ?_
        split
        · refine emits_bind fun y1 h1 => emits_bind fun y2 h2 => emits_bind fun y3 h3 => ?_
          split
          · rename_i a b ha hb
            have ha' : at4 y j jp oneStation s = .ok a := by
              unfold at4; rw [h1]; simp only [bind, Except.bind, h2, h3]; exact Dict.at!_ok.2 ha
            have hb' : at4 y j jp oneStation sp = .ok b := by
              unfold at4; rw [h1]; simp only [bind, Except.bind, h2, h3]; exact Dict.at!_ok.2 hb
            exact emits_single (origin_eq (usesOnly_var (stored_order ha'))
              (usesOnly_var (stored_order hb')) hasVar_var)
          · exact emits_nil
        · split
          · refine emits_bind fun l hl => emits_bind fun r hr => ?_
            exact emits_single (origin_eq (usesIn hl) (usesOnly_var (stored_order hr)) (hasVarIn hl))
          · exact emits_nil
      · exact emits_nil
    · exact emits_nil

theorem arrivalExpr_uses {lhs : ℚ} {ref : Option (Val × Val)} {e : LinExpr}
    (h : arrivalExpr dv lhs ref = .ok e) : UsesOnly (Stored dv y) e := by
  unfold arrivalExpr at h
  split at h
  · obtain ⟨v, hv, h⟩ := bind_ok h; cases h
    exact usesOnly_add (usesOnly_num _) (usesOnly_var (stored_delay hv))
  · cases h; exact usesOnly_num _

theorem trainsOrderAtS_origin {s j jp : Val} :
    Emits (Origin dv y "track_occupation_") (trainsOrderAtS s j jp tt dv y ts dmax) := by
  unfold trainsOrderAtS
  simp only
  split
  · refine emits_bind fun l hl => emits_bind fun r hr => ?_
    exact emits_single (origin_eq (uses3 hl) (uses3 hr) (hasVar3 hl))
  · refine emits_bind fun x _ => emits_bind fun e _ => emits_bind fun res _ => ?_
    split
    · refine emits_bind fun l hl => emits_bind fun yv hyv => emits_bind fun dj hdj => ?_
      rw [String.append_assoc]
      exact emits_single (origin_ge (usesOnly_sub (arrivalExpr_uses hl)
        (usesOnly_var (stored_delay hdj)))
        (usesOnly_sub (usesOnly_num _) (usesOnly_smul (uses3 hyv))) hasVar_var.subR)
    · exact emits_nil

theorem trackOccupation_origin :
    Emits (Origin dv y "track_occupation_") (trackOccupation tt dv y ts dmax) := by
  unfold trackOccupation
  refine emits_collect fun e _ => emits_collect fun js _ => emits_collect fun p _ => ?_
  unfold trackOccBody
  split
  · refine emits_append ?_ ?_
    · unfold trackOccFirst
      refine emits_bind fun sk _ => ?_
      split
      · exact emits_append keepTrainsOrder_origin trainsOrderAtS_origin
      · exact emits_nil
    · unfold trackOccSecond
      refine emits_bind fun sk _ => ?_
      split
      · exact trainsOrderAtS_origin
      · exact emits_nil
  · exact emits_nil

theorem rollingStockCirc_origin :
    Emits (Origin dv y "circulation_") (rollingStockCirc tt dv ts dmax) := by
  unfold rollingStockCirc
  refine emits_collect fun e _ => emits_collect fun p _ => ?_
  unfold circBody
  refine emits_bind fun path _ => emits_bind fun sp _ => emits_bind fun l _ => emits_bind fun r _ =>
    emits_bind fun p _ => emits_bind fun pr _ => ?_
  simp only
  split
  · refine emits_bind fun dl hdl => emits_bind fun dr hdr => ?_
    exact emits_single (origin_ge (usesOnly_add (usesOnly_num _) (usesOnly_var (stored_delay hdr)))
      (usesOnly_add (usesOnly_num _) (usesOnly_var (stored_delay hdl))) hasVar_var.addR)
  · exact emits_nil

theorem switchOrderVar_uses {s jp sp jpp spp : Val} {e : LinExpr}
    (h : switchOrderVar s jp sp jpp spp y ts = .ok e) : UsesOnly (Stored dv y) e := by
  unfold switchOrderVar at h
  split at h
  · split at h
    · obtain ⟨mo, _, h⟩ := bind_ok h
      split at h
      · exact usesIn h
      · exact uses3 h
    · exact uses3 h
  · split at h
    · exact uses4 h
    · exact usesIn h

theorem switchOccupation_origin :
    Emits (Origin dv y "switch_") (switchOccupation tt dv y ts dmax) := by
  have key : ∀ s jp sp jpp spp, Emits (Origin dv y "switch_")
      (switchOcc s jp sp jpp spp tt dv y ts dmax) := by
    intro s jp sp jpp spp
    unfold switchOcc
    refine emits_bind fun l _ => emits_bind fun r _ => emits_bind fun res _ => emits_bind fun pl _ =>
      emits_bind fun pr _ => ?_
    simp only
    split
    · refine emits_bind fun yv hyv => emits_bind fun dl hdl => emits_bind fun dr hdr => ?_
      rw [String.append_assoc, String.append_assoc]
      exact emits_single (origin_ge (usesOnly_add (usesOnly_num _) (usesOnly_var (stored_delay hdl)))
        (usesOnly_add (usesOnly_sub (usesOnly_num _) (usesOnly_smul (switchOrderVar_uses hyv)))
          (usesOnly_var (stored_delay hdr))) hasVar_var.addR)
    · exact emits_nil
  unfold switchOccupation
  refine emits_collect fun e _ => emits_collect fun pair _ => ?_
  unfold switchBody
  split
  · split
    · refine emits_bind fun sp _ => emits_bind fun spp _ => ?_
      exact emits_append (key _ _ _ _ _) (key _ _ _ _ _)
    · exact emits_nil
  · exact emits_error

end

/-- the constraints of a built problem, family by family -/
theorem built_constraints {ts : TrainSets} {tt : Timetable} {dmax : ℚ} {cat : Cat} {b : Built}
    (h : buildProblem ts tt dmax cat = .ok b) : ∃ c1 c2 c3 c4 c5 c6,
      minimalSpan tt b.dv b.y ts dmax = .ok c1 ∧ minimalStay tt b.dv ts = .ok c2 ∧
      singleLine tt b.dv b.y ts dmax = .ok c3 ∧ trackOccupation tt b.dv b.y ts dmax = .ok c4 ∧
      rollingStockCirc tt b.dv ts dmax = .ok c5 ∧ switchOccupation tt b.dv b.y ts dmax = .ok c6 ∧
      b.prob.constraints =
        (c1 ++ c2 ++ c3 ++ c4 ++ c5 ++ c6).map (fun nc => (sanitize nc.1, nc.2)) ∧
      (Dict.keys b.prob.constraints).Nodup := by
  unfold buildProblem at h
  obtain ⟨dv, hdv, h⟩ := bind_ok h
  obtain ⟨y, hy, h⟩ := bind_ok h
  obtain ⟨c1, h1, h⟩ := bind_ok h
  obtain ⟨c2, h2, h⟩ := bind_ok h
  obtain ⟨c3, h3, h⟩ := bind_ok h
  obtain ⟨c4, h4, h⟩ := bind_ok h
  obtain ⟨c5, h5, h⟩ := bind_ok h
  obtain ⟨c6, h6, h⟩ := bind_ok h
  obtain ⟨obj, hobj, h⟩ := bind_ok h
  obtain ⟨p, hp, h⟩ := bind_ok h
  cases h
  obtain ⟨_, hc, hnd⟩ := Problem.addAll_ok hp
  refine ⟨c1, c2, c3, c4, c5, c6, h1, h2, h3, h4, h5, h6, ?_, ?_⟩
  · simp only [hc]; simp only [Problem.empty, List.nil_append]
  · exact hnd (by simp [Problem.empty, Dict.keys])

end Verif
