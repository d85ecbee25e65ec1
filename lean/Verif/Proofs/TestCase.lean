import Verif.Proofs.LpTree
import Mathlib.Tactic.FieldSimp

/-!
# Tests of the solver: what they assert, and how it is checked for all solvers
-/

namespace Verif

/-- comparison of strings by code points -/
def leChars : List Char → List Char → Bool
  | [], _ => true
  | _ :: _, [] => false
  | a :: as, b :: bs => if a.toNat = b.toNat then leChars as bs else decide (a.toNat < b.toNat)

def insertByName (v : LpVar) : List LpVar → List LpVar
  | [] => [v]
  | w :: ws => if leChars v.name.toList w.name.toList then v :: w :: ws else w :: insertByName v ws

/-- `problem.variables()` in the order in which PuLP returns them: sorted by name -/
def Problem.variablesByName (p : Problem) : List LpVar := p.vars.foldr insertByName []

/-- a test of `railway_solvers/test/test_linear_solver*.py`: the input and the assertions about the
solved problem -/
structure Case where
  ts : TrainSets
  tt : Timetable
  dmax : ℚ
  cat : Cat
  /-- `prob.objective.value() == …` -/
  objective : ℚ
  /-- `v[i].name == …` -/
  names : List (ℕ × String)
  /-- `v[i].varValue == …` -/
  values : List (ℕ × ℚ)
  /-- `delay_and_acctual_time(train_sets, timetable, prob, j, s) == …` -/
  times : List ((Val × Val) × ℚ × ℚ × ℚ)
  /-- `impact_to_objective(prob, timetable, j, s, d_max) == …` -/
  impacts : List ((Val × Val) × ℚ × ℚ)

/-- the assertions of the test about the values found by the solver -/
structure Case.Passes (c : Case) (b : Built) (σ : LpVar → ℚ) : Prop where
  objective : b.prob.objective.eval σ = c.objective
  names : ∀ a ∈ c.names, (b.prob.variablesByName[a.1]?).map LpVar.name = some a.2
  values : ∀ a ∈ c.values, (b.prob.variablesByName[a.1]?).map σ = some a.2
  times : ∀ a ∈ c.times, delayAndActualTime c.ts c.tt b.prob σ a.1.1 a.1.2 = .ok a.2
  impacts : ∀ a ∈ c.impacts, impactToObjective b.prob c.tt σ a.1.1 a.1.2 a.2.1 = .ok a.2.2

/-- an assignment that a correct solver may return -/
def Built.IsOptimal (b : Built) (σ : LpVar → ℚ) : Prop :=
  Feasible b σ ∧ ∀ σ', Feasible b σ' → b.prob.objective.eval σ ≤ b.prob.objective.eval σ'

/-! ## Checking -/

/-- the place of a variable in the list -/
def placeOf (b : Built) (v : LpVar) : Option ℕ :=
  if v ∈ b.allVars then some (b.allVars.idxOf v) else .none

def goalValue (b : Built) (a : ℕ × ℚ) : Option (ℕ × ℚ) :=
  match b.prob.variablesByName[a.1]? with
  | some v => (placeOf b v).map fun i => (i, a.2)
  | .none => .none

def goalTime (c : Case) (b : Built) (a : (Val × Val) × ℚ × ℚ × ℚ) : Option (ℕ × ℚ) :=
  match b.prob.vars.find? fun v => v.name = "Delays_" ++ key2 a.1.1 a.1.2 with
  | some v =>
    match earliestDepTime c.ts.paths c.tt a.1.1 a.1.2 with
    | .ok e =>
      if a.2.2.1 = a.2.1 + e ∧ a.2.2.2 = e then (placeOf b v).map fun i => (i, a.2.1) else .none
    | .error _ => .none
  | .none => .none

def goalImpact (c : Case) (b : Built) (a : (Val × Val) × ℚ × ℚ) : Option (ℕ × ℚ) :=
  match b.prob.vars.find? fun v => v.name = "Delays_" ++ key2 a.1.1 a.1.2 with
  | some v =>
    if a.2.1 = 0 ∨ penaltyWeights c.tt a.1.1 a.1.2 = 0 then .none
    else (placeOf b v).map fun i => (i, a.2.2 * a.2.1 / penaltyWeights c.tt a.1.1 a.1.2)
  | .none => .none

/-- all of a list, or nothing -/
def optAll {α β : Type} (f : α → Option β) : List α → Option (List β)
  | [] => some []
  | x :: xs =>
    match f x, optAll f xs with
    | some y, some ys => some (y :: ys)
    | _, _ => .none

theorem optAll_iff {α β : Type} {f : α → Option β} {P : β → Prop} {Q : α → Prop}
    (h : ∀ x y, f x = some y → (Q x ↔ P y)) :
    ∀ {l : List α} {r : List β}, optAll f l = some r → ((∀ x ∈ l, Q x) ↔ ∀ y ∈ r, P y) := by
  intro l
  induction l with
  | nil => intro r hr; cases hr; simp
  | cons a l ih =>
    intro r hr
    simp only [optAll] at hr
    split at hr
    · rename_i y ys h1 h2
      cases hr
      simp [h a y h1, ih h2]
    · cases hr

/-- the problem of the test in numbers, and the asserted values -/
def Case.code (c : Case) : Option (Coded × List (ℕ × ℚ)) :=
  match buildProblem c.ts c.tt c.dmax c.cat with
  | .error _ => .none
  | .ok b =>
    if varsOK b && c.names.all fun a => (b.prob.variablesByName[a.1]?).map LpVar.name == some a.2 then
      match optAll (goalValue b) c.values, optAll (goalTime c b) c.times,
        optAll (goalImpact c b) c.impacts with
      | some g1, some g2, some g3 => some (b.code, g1 ++ g2 ++ g3)
      | _, _, _ => .none
    else .none

/-- the value of a variable in the vector -/
abbrev At (x : List ℚ) (g : ℕ × ℚ) : Prop := x[g.1]?.getD 0 = g.2

theorem placeOf_at {b : Built} {v : LpVar} {i : ℕ} (h : placeOf b v = some i) (σ : LpVar → ℚ) :
    (b.vec σ)[i]?.getD 0 = σ v := by
  unfold placeOf at h
  split at h
  · rename_i hv
    cases h
    apply vec_get
    rw [List.getElem?_eq_getElem (List.idxOf_lt_length_iff.2 hv), List.getElem_idxOf]
  · cases h

theorem code_spec {c : Case} {K : Coded} {gs : List (ℕ × ℚ)} (h : c.code = some (K, gs)) :
    ∃ b, buildProblem c.ts c.tt c.dmax c.cat = .ok b ∧ varsOK b = true ∧ b.code = K ∧
      ∀ σ, c.Passes b σ ↔ b.prob.objective.eval σ = c.objective ∧ ∀ g ∈ gs, At (b.vec σ) g := by
  unfold Case.code at h
  split at h
  · cases h
  · rename_i b hb
    split at h
    · rename_i hv
      simp only [Bool.and_eq_true, List.all_eq_true, beq_iff_eq] at hv
      split at h
      · rename_i g1 g2 g3 h1 h2 h3
        cases h
        refine ⟨b, hb, hv.1, rfl, fun σ => ?_⟩
        have e1 := optAll_iff (f := goalValue b) (P := At (b.vec σ))
          (Q := fun a => (b.prob.variablesByName[a.1]?).map σ = some a.2) (by
            intro a g hg
            unfold goalValue at hg
            split at hg
            · rename_i v hv
              simp only [Option.map_eq_some_iff] at hg
              obtain ⟨i, hi, rfl⟩ := hg
              simp [At, hv, placeOf_at hi]
            · cases hg) h1
        have e2 := optAll_iff (f := goalTime c b) (P := At (b.vec σ))
          (Q := fun a => delayAndActualTime c.ts c.tt b.prob σ a.1.1 a.1.2 = .ok a.2) (by
            rintro ⟨⟨j, s⟩, d, t, u⟩ g hg
            unfold goalTime at hg
            unfold delayAndActualTime
            simp only at hg ⊢
            split at hg
            · rename_i v hv
              rw [hv]
              split at hg
              · rename_i e he
                split at hg
                · rename_i hh
                  simp only [Option.map_eq_some_iff] at hg
                  obtain ⟨i, hi, rfl⟩ := hg
                  simp only [At, placeOf_at hi, he]
                  obtain ⟨h1, h2⟩ := hh
                  subst h2 h1
                  constructor
                  · intro h; cases h; rfl
                  · intro h; rw [h]; rfl
                · cases hg
              · cases hg
            · cases hg) h2
        have e3 := optAll_iff (f := goalImpact c b) (P := At (b.vec σ))
          (Q := fun a => impactToObjective b.prob c.tt σ a.1.1 a.1.2 a.2.1 = .ok a.2.2) (by
            rintro ⟨⟨j, s⟩, d, t⟩ g hg
            unfold goalImpact at hg
            unfold impactToObjective
            simp only at hg ⊢
            split at hg
            · rename_i v hv
              rw [hv]
              split at hg
              · cases hg
              · rename_i hh
                push Not at hh
                simp only [Option.map_eq_some_iff] at hg
                obtain ⟨i, hi, rfl⟩ := hg
                simp only [At, placeOf_at hi, if_neg hh.1, Except.ok.injEq]
                have := hh.1
                have := hh.2
                constructor
                · rintro rfl; field_simp
                · intro h; rw [h]; field_simp
            · cases hg) h3
        constructor
        · rintro ⟨p1, -, p3, p4, p5⟩
          refine ⟨p1, fun g hg => ?_⟩
          rcases List.mem_append.1 hg with hg | hg
          · rcases List.mem_append.1 hg with hg | hg
            · exact e1.1 p3 g hg
            · exact e2.1 p4 g hg
          · exact e3.1 p5 g hg
        · rintro ⟨p1, p2⟩
          exact ⟨p1, hv.2, e1.2 fun g hg => p2 g (by simp [hg]),
            e2.2 fun g hg => p2 g (by simp [hg]), e3.2 fun g hg => p2 g (by simp [hg])⟩
      · cases h
    · cases h

/-- a fact with few coefficients, for `n` variables -/
def sparse (n : ℕ) (l : List (ℕ × ℚ)) (c : ℚ) : Fact :=
  ((List.range n).map fun i => (l.lookup i).getD 0, c)

/-- the fact that a variable is at least, or at most, a value -/
def atLeast (g : ℕ × ℚ) : Fact := (Fact.unit g.1, -g.2)
def atMost (g : ℕ × ℚ) : Fact := Fact.neg (Fact.unit g.1, -g.2)

/-- the objective is at least, or at most, a value -/
def Coded.above (K : Coded) (z : ℚ) : Fact := (K.objective.1, K.objective.2 - z)
def Coded.below (K : Coded) (z : ℚ) : Fact := Fact.neg (K.above z)

def Coded.lowerOK (K : Coded) (z : ℚ) (t : LpTree) : Bool := t.check K.ints (K.above z) K.facts

/-- a vector is feasible and has the given objective -/
def Coded.pointOK (K : Coded) (z : ℚ) (x : List ℚ) : Bool :=
  decide (x.length = K.ints.length) && K.facts.all (fun f => decide (0 ≤ f.eval x)) &&
  (List.zip K.ints x).all (fun p => !p.1 || decide (p.2.den = 1)) &&
  decide (K.objective.eval x = z)

/-- every optimal assignment has the values -/
def Coded.goalsOK (K : Coded) (z : ℚ) : List (ℕ × ℚ) → List (LpTree × LpTree) → Bool
  | [], _ => true
  | g :: gs, t :: ts => t.1.check K.ints (atLeast g) (K.facts ++ [K.below z]) &&
      t.2.check K.ints (atMost g) (K.facts ++ [K.below z]) && goalsOK K z gs ts
  | _ :: _, [] => false

theorem goalsOK_spec {K : Coded} {z : ℚ} {gs : List (ℕ × ℚ)} {ts : List (LpTree × LpTree)}
    (h : K.goalsOK z gs ts = true) {x : List ℚ} (hf : ∀ f ∈ K.facts, 0 ≤ f.eval x)
    (hw : LpTree.Whole K.ints x) (hz : K.objective.eval x ≤ z) : ∀ g ∈ gs, At x g := by
  have hfs : ∀ f ∈ K.facts ++ [K.below z], 0 ≤ f.eval x := by
    intro f hf'
    rcases List.mem_append.1 hf' with hf' | hf'
    · exact hf f hf'
    · rw [List.mem_singleton] at hf'
      subst hf'
      unfold Coded.below Coded.above
      rw [Fact.eval_neg]
      unfold Fact.eval at hz ⊢
      linarith
  induction gs generalizing ts with
  | nil => intro g hg; cases hg
  | cons g gs ih =>
    cases ts with
    | nil => cases h
    | cons t ts =>
      simp only [Coded.goalsOK, Bool.and_eq_true] at h
      obtain ⟨⟨h1, h2⟩, h3⟩ := h
      intro g' hg'
      rcases List.mem_cons.1 hg' with rfl | hg'
      · have a1 := LpTree.check_spec hw _ _ h1 hfs
        have a2 := LpTree.check_spec hw _ _ h2 hfs
        unfold atLeast Fact.eval at a1
        unfold atMost at a2
        rw [Fact.eval_neg, Fact.eval] at a2
        simp only [Fact.dot_unit] at a1 a2
        exact le_antisymm (by linarith) (by linarith)
      · exact ih h3 g' hg'

theorem lower_spec {c : Case} {K : Coded} {gs : List (ℕ × ℚ)} (hc : c.code = some (K, gs))
    {z : ℚ} {t : LpTree} (ht : K.lowerOK z t = true) {b : Built}
    (hb : buildProblem c.ts c.tt c.dmax c.cat = .ok b) {σ : LpVar → ℚ} (hf : Feasible b σ) :
    z ≤ b.prob.objective.eval σ := by
  obtain ⟨b', hb', hv, rfl, -⟩ := code_spec hc
  cases hb.symm.trans hb'
  obtain ⟨h1, h2⟩ := (feasible_iff hv).1 hf
  have := LpTree.check_spec h2 t _ ht h1
  unfold Coded.above at this
  rw [← objective_eval hv]
  unfold Fact.eval at this ⊢
  linarith

theorem point_spec {c : Case} {K : Coded} {gs : List (ℕ × ℚ)} (hc : c.code = some (K, gs))
    {z : ℚ} {x : List ℚ} (hx : K.pointOK z x = true) :
    ∃ b, buildProblem c.ts c.tt c.dmax c.cat = .ok b ∧ ∃ σ, Feasible b σ ∧
      b.prob.objective.eval σ = z ∧ b.vec σ = x := by
  obtain ⟨b, hb, hv, rfl, -⟩ := code_spec hc
  simp only [Coded.pointOK, Bool.and_eq_true, decide_eq_true_eq, List.all_eq_true] at hx
  obtain ⟨⟨⟨h1, h2⟩, h3⟩, h4⟩ := hx
  have hn : b.allVars.Nodup := by
    have := hv
    simp only [varsOK, Bool.and_eq_true, decide_eq_true_eq] at this
    exact this.1.1
  have hl : x.length = b.allVars.length := by simpa [Built.code] using h1
  have hvec := vec_assign hn hl
  refine ⟨b, hb, b.assign x, (feasible_iff hv).2 ⟨?_, ?_⟩, ?_, hvec⟩
  · rw [hvec]; exact h2
  · rw [hvec]
    intro i hi
    have hil : i < x.length := by
      rw [h1]; exact (List.getElem?_eq_some_iff.1 hi).1
    have hm : (true, x[i]) ∈ List.zip b.code.ints x := by
      apply List.mem_of_getElem? (i := i)
      rw [List.getElem?_zip_eq_some]
      exact ⟨hi, List.getElem?_eq_getElem hil⟩
    have := h3 _ hm
    simp only [Bool.not_true, Bool.false_or, decide_eq_true_eq] at this
    rw [List.getElem?_eq_getElem hil]
    exact ⟨x[i].num, by simpa using (Rat.den_eq_one_iff _).1 this |>.symm⟩
  · rw [← objective_eval hv, hvec]; exact h4

/-- the test can pass, and nothing better exists -/
theorem passes_of {c : Case} {K : Coded} {gs : List (ℕ × ℚ)} (hc : c.code = some (K, gs))
    {t : LpTree} (ht : K.lowerOK c.objective t = true) {x : List ℚ}
    (hx : K.pointOK c.objective x = true) (hg : ∀ g ∈ gs, At x g) :
    ∃ b, buildProblem c.ts c.tt c.dmax c.cat = .ok b ∧ ∃ σ, b.IsOptimal σ ∧ c.Passes b σ := by
  obtain ⟨b, hb, σ, hf, ho, hvec⟩ := point_spec hc hx
  obtain ⟨b', hb', -, -, hp⟩ := code_spec hc
  cases hb.symm.trans hb'
  refine ⟨b, hb, σ, ⟨hf, fun σ' hf' => ?_⟩, (hp σ).2 ⟨ho, by rwa [hvec]⟩⟩
  rw [ho]
  exact lower_spec hc ht hb hf'

/-- every correct solver passes -/
theorem determined_of {c : Case} {K : Coded} {gs : List (ℕ × ℚ)} (hc : c.code = some (K, gs))
    {t : LpTree} (ht : K.lowerOK c.objective t = true) {x : List ℚ}
    (hx : K.pointOK c.objective x = true) {ts : List (LpTree × LpTree)}
    (hts : K.goalsOK c.objective gs ts = true) :
    ∀ b, buildProblem c.ts c.tt c.dmax c.cat = .ok b → ∀ σ, b.IsOptimal σ → c.Passes b σ := by
  intro b hb σ ⟨hf, hopt⟩
  obtain ⟨b', hb', σ', hf', ho', -⟩ := point_spec hc hx
  cases hb.symm.trans hb'
  have h1 := hopt σ' hf'
  rw [ho'] at h1
  have h2 := lower_spec hc ht hb hf
  obtain ⟨b', hb', hv, hK, hp⟩ := code_spec hc
  cases hb.symm.trans hb'
  subst hK
  obtain ⟨q1, q2⟩ := (feasible_iff hv).1 hf
  refine (hp σ).2 ⟨le_antisymm h1 h2, goalsOK_spec hts q1 q2 ?_⟩
  rw [objective_eval hv]; exact h1

/-- a correct solver may fail the test -/
theorem loose_of {c : Case} {K : Coded} {gs : List (ℕ × ℚ)} (hc : c.code = some (K, gs))
    {t : LpTree} (ht : K.lowerOK c.objective t = true) {x : List ℚ}
    (hx : K.pointOK c.objective x = true) (hg : ¬ ∀ g ∈ gs, At x g) :
    ∃ b, buildProblem c.ts c.tt c.dmax c.cat = .ok b ∧ ∃ σ, b.IsOptimal σ ∧ ¬ c.Passes b σ := by
  obtain ⟨b, hb, σ, hf, ho, hvec⟩ := point_spec hc hx
  obtain ⟨b', hb', -, -, hp⟩ := code_spec hc
  cases hb.symm.trans hb'
  refine ⟨b, hb, σ, ⟨hf, fun σ' hf' => ?_⟩, fun h => hg ?_⟩
  · rw [ho]
    exact lower_spec hc ht hb hf'
  · have := ((hp σ).1 h).2
    rwa [hvec] at this

end Verif
