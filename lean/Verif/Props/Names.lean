import Verif.Proofs.VarNames
import Verif.Props.Order

/-!
# Names: C18, C19, C20, C51
-/

namespace Verif

variable {ts : TrainSets} {tt : Timetable} {dmax : ℚ} {cat : Cat} {b : Built} {sol : LpVar → ℚ}

/-! ## C20 -/

theorem reMatch_true {pre rest : String}
    (h : ∀ c ∈ pre.toList, c ∉ ['-', '+', '[', ']', ' ', '>', '/']) :
    reMatch pre (sanitize (pre ++ rest)) = true := by
  unfold reMatch
  rw [sanitize_append, sanitize_clean h]
  simp

theorem reMatch_false {q pre rest : String}
    (h : ∀ c ∈ pre.toList, c ∉ ['-', '+', '[', ']', ' ', '>', '/'])
    (hq : ¬ (q.toList.take (min q.length pre.length)).isPrefixOf pre.toList) :
    reMatch q (sanitize (pre ++ rest)) = false := by
  unfold reMatch
  rw [sanitize_append, sanitize_clean h]
  simp only [String.toList_append, decide_eq_false_iff_not]
  intro hp
  apply hq
  rw [List.isPrefixOf_iff_prefix]
  have h1 : q.toList.take (min q.length pre.length) <+: pre.toList ++ (sanitize rest).toList :=
    (List.take_prefix _ _).trans hp
  refine List.prefix_of_prefix_length_le h1 (List.prefix_append _ _) ?_
  rw [List.length_take, String.length_toList, String.length_toList]
  omega

/-- all constraints have the class `cls` -/
def Classed (cls : String) (cs : List Named) : Prop :=
  ∀ c ∈ cs, getPlaceholder (sanitize c.1) = .ok cls

/-- **C20.** No two constraints of a built problem have the same name, and every constraint is in
the class of the rule that it comes from; `_get_placeholder` never raises. -/
theorem C20_classes (hb : buildProblem ts tt dmax cat = .ok b) :
    (Dict.keys b.prob.constraints).Nodup ∧
    (∃ c1 c2 c3 c4 c5 c6, minimalSpan tt b.dv b.y ts dmax = .ok c1 ∧
      minimalStay tt b.dv ts = .ok c2 ∧ singleLine tt b.dv b.y ts dmax = .ok c3 ∧
      trackOccupation tt b.dv b.y ts dmax = .ok c4 ∧ rollingStockCirc tt b.dv ts dmax = .ok c5 ∧
      switchOccupation tt b.dv b.y ts dmax = .ok c6 ∧
      b.prob.constraints =
        (c1 ++ c2 ++ c3 ++ c4 ++ c5 ++ c6).map (fun nc => (sanitize nc.1, nc.2)) ∧
      Classed "minimal_span" c1 ∧ Classed "minimal_stay" c2 ∧ Classed "single_line" c3 ∧
      Classed "track_occupation" c4 ∧ Classed "circulation" c5 ∧ Classed "switch" c6) ∧
    (∀ nc ∈ b.prob.constraints, ∃ cls, getPlaceholder nc.1 = .ok cls) := by
  obtain ⟨c1, c2, c3, c4, c5, c6, h1, h2, h3, h4, h5, h6, he, hnd⟩ := built_constraints hb
  have k1 : Classed "minimal_span" c1 := fun c hc => by
    obtain ⟨⟨rest, hr⟩, _⟩ := minimalSpan_origin c1 h1 c hc
    rw [hr]; unfold getPlaceholder
    rw [if_pos (reMatch_true (by decide))]
  have k2 : Classed "minimal_stay" c2 := fun c hc => by
    obtain ⟨⟨rest, hr⟩, _⟩ := minimalStay_origin (y := b.y) c2 h2 c hc
    rw [hr]; unfold getPlaceholder
    rw [reMatch_false (by decide) (by decide), reMatch_false (by decide) (by decide),
      reMatch_false (by decide) (by decide), reMatch_true (by decide)]
    rfl
  have k3 : Classed "single_line" c3 := fun c hc => by
    obtain ⟨⟨rest, hr⟩, _⟩ := singleLine_origin c3 h3 c hc
    rw [hr]; unfold getPlaceholder
    rw [reMatch_false (by decide) (by decide), reMatch_false (by decide) (by decide),
      reMatch_true (by decide)]
    rfl
  have k4 : Classed "track_occupation" c4 := fun c hc => by
    obtain ⟨⟨rest, hr⟩, _⟩ := trackOccupation_origin c4 h4 c hc
    rw [hr]; unfold getPlaceholder
    rw [reMatch_false (by decide) (by decide), reMatch_false (by decide) (by decide),
      reMatch_false (by decide) (by decide), reMatch_false (by decide) (by decide),
      reMatch_true (by decide)]
    rfl
  have k5 : Classed "circulation" c5 := fun c hc => by
    obtain ⟨⟨rest, hr⟩, _⟩ := rollingStockCirc_origin (y := b.y) c5 h5 c hc
    rw [hr]; unfold getPlaceholder
    rw [reMatch_false (by decide) (by decide), reMatch_true (by decide)]
    rfl
  have k6 : Classed "switch" c6 := fun c hc => by
    obtain ⟨⟨rest, hr⟩, _⟩ := switchOccupation_origin c6 h6 c hc
    rw [hr]; unfold getPlaceholder
    rw [reMatch_false (by decide) (by decide), reMatch_false (by decide) (by decide),
      reMatch_false (by decide) (by decide), reMatch_false (by decide) (by decide),
      reMatch_false (by decide) (by decide), reMatch_true (by decide)]
    rfl
  refine ⟨hnd, ⟨c1, c2, c3, c4, c5, c6, h1, h2, h3, h4, h5, h6, he, k1, k2, k3, k4, k5, k6⟩, ?_⟩
  intro nc hnc
  rw [he] at hnc
  obtain ⟨c, hc, rfl⟩ := List.mem_map.1 hnc
  simp only [List.mem_append] at hc
  rcases hc with ((((hc | hc) | hc) | hc) | hc) | hc
  · exact ⟨_, k1 c hc⟩
  · exact ⟨_, k2 c hc⟩
  · exact ⟨_, k3 c hc⟩
  · exact ⟨_, k4 c hc⟩
  · exact ⟨_, k5 c hc⟩
  · exact ⟨_, k6 c hc⟩

/-- the small example has constraints of all six classes; unknown names are rejected -/
example : (match buildProblem Small.ts Small.tt 10 .integer with
    | .ok b => (["minimal_span", "minimal_stay", "single_line", "track_occupation", "circulation",
        "switch"].all fun cls => b.prob.constraints.any fun nc =>
          match getPlaceholder nc.1 with
          | .ok c => c == cls
          | .error _ => false)
    | .error _ => false) = true ∧ getPlaceholder "stay_1_A" = .error .valueError := by
  constructor
  · decide +kernel
  · decide +kernel

/-! ## C51 -/

/-- the variable is a precedence -/
def IsOrder (v : LpVar) : Prop := ∃ a b c d, v.vid = .order a b c d

/-- the variable is a delay -/
def IsDelay (v : LpVar) : Prop := ∃ j s, v.vid = .delay j s

instance (v : LpVar) : Decidable (IsOrder v) := by
  cases h : v.vid with
  | delay j s => exact .isFalse (by rintro ⟨a, b, c, d, h'⟩; rw [h] at h'; cases h')
  | order a b c d => exact .isTrue ⟨a, b, c, d, h⟩

instance (v : LpVar) : Decidable (IsDelay v) := by
  cases h : v.vid with
  | delay j s => exact .isTrue ⟨j, s, h⟩
  | order a b c d => exact .isFalse (by rintro ⟨j, s, h'⟩; rw [h] at h'; cases h')

/-- the full claim of C51: `count_vars` gives the numbers of precedences and of delays -/
def CountsRight (p : Problem) : Prop :=
  countVars p = ((p.vars.filter fun v => decide (IsOrder v)).length,
    (p.vars.filter fun v => decide (IsDelay v)).length, p.constraints.length)

theorem infix_underscore {c : Char} {a b : List Char} (ha : '_' ∉ a)
    (h : [c, '_'] <:+: a ++ '_' :: b) (hc : c ≠ '_') : a.getLast? = some c ∨ [c, '_'] <:+: b := by
  obtain ⟨pre, suf, h⟩ := h
  by_cases hp : '_' ∈ pre
  · obtain ⟨p1, p2, rfl, hp1⟩ := List.eq_append_cons_of_mem hp
    have h' : p1 ++ '_' :: (p2 ++ [c, '_'] ++ suf) = a ++ '_' :: b := by simpa using h
    obtain ⟨_, h2⟩ := split_underscore hp1 ha h'
    exact .inr ⟨p2, suf, h2⟩
  · have h' : (pre ++ [c]) ++ '_' :: suf = a ++ '_' :: b := by simpa using h
    obtain ⟨h1, _⟩ := split_underscore (by simp [hp, Ne.symm hc]) ha h'
    exact .inl (by rw [← h1]; simp)

/-- **C51, partial.** Full claim: `CountsRight`. Missing: `count_vars` looks for the substrings
`z_` and `y_` in the names, so the train and station names must not contain underscores or
characters that PuLP replaces by underscores, and no train name may end in `y` or `z`. -/
theorem C51_counts_partial (hb : buildProblem ts tt dmax cat = .ok b)
    (hc : ∀ c ∈ Calls ts, Clean c.1 ∧ Clean c.2 ∧ c.1.render.toList.getLast? ≠ some 'y' ∧
      c.1.render.toList.getLast? ≠ some 'z') : CountsRight b.prob := by
  have P := parts hb
  have key : ∀ v ∈ b.prob.vars, (strContains v.name "z_" || strContains v.name "y_") =
      decide (IsOrder v) ∧ (IsOrder v ∨ IsDelay v) ∧ ¬ (IsOrder v ∧ IsDelay v) := by
    intro v hv
    have hex : ¬ (IsOrder v ∧ IsDelay v) := by
      rintro ⟨⟨a, c, d, e, h⟩, ⟨j, s, h'⟩⟩
      rw [h] at h'; cases h'
    rcases vars_stored hb hv with ⟨j, s, hd⟩ | ⟨x, z, c, d, ho⟩
    · rw [delayAt_ok, delayVariables_find P.hdv] at hd
      obtain ⟨hdel, rfl⟩ := hd
      have hdl : IsDelay (dVar j s dmax cat) := ⟨j, s, rfl⟩
      refine ⟨?_, .inr hdl, hex⟩
      have hno : ¬ IsOrder (dVar j s dmax cat) := fun h => hex ⟨h, hdl⟩
      rw [decide_eq_false hno]
      obtain ⟨h1, h2, h3, h4⟩ := hc (j, s) (mem_calls.2 ⟨hdel.1, hdel.2.1⟩)
      rw [dVar_name h1 h2]
      have hl : ("Delays_" ++ key2 j s).toList =
          ['D', 'e', 'l', 'a', 'y', 's'] ++ '_' :: (j.render.toList ++ '_' :: s.render.toList) := by
        have e1 : "Delays_".toList = ['D', 'e', 'l', 'a', 'y', 's', '_'] := by decide
        have e2 : "_".toList = ['_'] := by decide
        simp [key2, e1, e2]
      have hnc : ∀ c, c ≠ '_' → c ≠ 's' → j.render.toList.getLast? ≠ some c →
          ¬ [c, '_'] <:+: ("Delays_" ++ key2 j s).toList := by
        intro c hc1 hc2 hc3 hin
        rw [hl] at hin
        rcases infix_underscore (by decide) hin hc1 with h | h
        · simp at h; exact hc2 h.symm
        · rcases infix_underscore h1.plain h hc1 with h | h
          · exact hc3 h
          · exact h2.plain (h.subset (by simp))
      have z1 : "z_".toList = ['z', '_'] := by decide
      have z2 : "y_".toList = ['y', '_'] := by decide
      unfold strContains
      rw [z1, z2, decide_eq_false (hnc 'z' (by decide) (by decide) h4),
        decide_eq_false (hnc 'y' (by decide) (by decide) h3)]
      rfl
    · have hyz := orderVariables_isYZ P.hy ho
      have hor : IsOrder v := ⟨x, z, c, d, (orderVariables_isOrderVar P.hy ho).1⟩
      refine ⟨?_, .inl hor, hex⟩
      rw [decide_eq_true hor]
      have z1 : "z_".toList = ['z', '_'] := by decide
      have z2 : "y_".toList = ['y', '_'] := by decide
      rcases order_head hyz with ⟨l, hl⟩ | ⟨l, hl⟩
      · have : strContains v.name "y_" = true := by
          unfold strContains
          rw [hl, z2, decide_eq_true_iff]
          exact ⟨[], l, rfl⟩
        rw [this]; simp
      · have : strContains v.name "z_" = true := by
          unfold strContains
          rw [hl, z1, decide_eq_true_iff]
          exact ⟨[], l, rfl⟩
        rw [this]; simp
  have hf : b.prob.vars.filter (fun v => strContains v.name "z_" || strContains v.name "y_") =
      b.prob.vars.filter fun v => decide (IsOrder v) :=
    List.filter_congr fun v hv => (key v hv).1
  unfold CountsRight countVars Problem.numConstraints
  rw [hf]
  simp only [Prod.mk.injEq, true_and, and_true]
  have hlen : ∀ l : List LpVar, (∀ v ∈ l, (IsOrder v ∨ IsDelay v) ∧ ¬ (IsOrder v ∧ IsDelay v)) →
      l.length = (l.filter fun v => decide (IsOrder v)).length +
        (l.filter fun v => decide (IsDelay v)).length := by
    intro l
    induction l with
    | nil => simp
    | cons v l ih =>
      intro h
      have h1 := ih fun x hx => h x (List.mem_cons_of_mem _ hx)
      obtain ⟨h2, h3⟩ := h v List.mem_cons_self
      rcases h2 with h2 | h2
      · have h4 : ¬ IsDelay v := fun h => h3 ⟨h2, h⟩
        simp [h2, h4]; omega
      · have h4 : ¬ IsOrder v := fun h => h3 ⟨h, h2⟩
        simp [h2, h4]; omega
  have := hlen b.prob.vars fun v hv => (key v hv).2
  omega

/-- one train that calls at a station with a space in its name -/
def exampleSpace : TrainSets where
  skipStation := .none
  paths := [(.int 1, [.str "A", .str "Nowy Bytom"])]
  J := [.int 1]
  Jd := []
  Josingle := []
  Jround := []
  Jtrack := []
  Jswitch := []
  addSwithes := .none

def exampleSpaceTt : Timetable where
  tauPass := [("1_A_Nowy Bytom", 10)]
  tauHeadway := []
  tauStop := [("1_Nowy Bytom", 1)]
  tauPrep := []
  tauRes := some 1
  schedule := .none
  initialConditions := [("1_A", 0)]
  penaltyWeights := [("1_Nowy Bytom", 1)]

/-- both delays are 5 -/
def exampleSpaceσ (v : LpVar) : ℚ :=
  match v.vid with
  | .delay _ _ => 5
  | .order _ _ _ _ => 0

theorem exampleSpace_feasible : ∃ b, buildProblem exampleSpace exampleSpaceTt 10 .integer = .ok b ∧
    Feasible b exampleSpaceσ :=
  feasible_of_check (by decide +kernel)
    (fun v j s hv => by unfold exampleSpaceσ; rw [hv]; exact ⟨by norm_num, by norm_num, 5, by norm_num⟩)
    (fun v a b c d hv => by unfold exampleSpaceσ; rw [hv]; exact .inl rfl)

/-- **C51 is false in general**: the delay variable of a train at "Nowy Bytom" is called
`Delays_1_Nowy_Bytom` and is counted as a precedence. -/
theorem C51_counts_false : ∃ ts tt dmax cat b, buildProblem ts tt dmax cat = .ok b ∧
    ¬ CountsRight b.prob := by
  obtain ⟨b, hb, _⟩ := exampleSpace_feasible
  refine ⟨_, _, _, _, b, hb, fun h => ?_⟩
  have h1 : (match buildProblem exampleSpace exampleSpaceTt 10 .integer with
      | .ok b => decide ((countVars b.prob).1 = 1 ∧
          (b.prob.vars.filter fun v => decide (IsOrder v)).length = 0)
      | .error _ => false) = true := by decide +kernel
  rw [hb] at h1
  simp only [decide_eq_true_eq] at h1
  unfold CountsRight at h
  rw [h] at h1
  omega

/-- the hypotheses of the partial theorem are met by the small example -/
example : (∃ b, buildProblem Small.ts Small.tt 10 .integer = .ok b) ∧
    ∀ c ∈ Calls Small.ts, Clean c.1 ∧ Clean c.2 ∧ c.1.render.toList.getLast? ≠ some 'y' ∧
      c.1.render.toList.getLast? ≠ some 'z' := by
  obtain ⟨b, hb, _⟩ := Small.feasible
  exact ⟨⟨b, hb⟩, by decide +kernel⟩

end Verif
