import Verif.Props.Qubo
import Verif.Proofs.Integral
import Verif.Props.Names

/-!
# C23, C24 for the problems built by `create_linear_problem`, and the way back from samples
-/

namespace Verif

variable {ts : TrainSets} {tt : Timetable} {dmax : ℚ} {cat : Cat} {b : Built}

/-- integer times give integer data -/
theorem built_integerData (hb : buildProblem ts tt dmax cat = .ok b) (h : IntTimes tt)
    (hd : IsInt dmax) : IntegerData b.prob := by
  intro nc hnc
  obtain ⟨c1, c2, c3, c4, c5, c6, h1, h2, h3, h4, h5, h6, he, _⟩ := built_constraints hb
  rw [he] at hnc
  obtain ⟨c, hc, rfl⟩ := List.mem_map.1 hnc
  simp only [List.mem_append] at hc
  rcases hc with ((((hn | hn) | hn) | hn) | hn) | hn
  · exact minimalSpan_int h hd c1 h1 c hn
  · exact minimalStay_int h c2 h2 c hn
  · exact singleLine_int h hd c3 h3 c hn
  · exact trackOccupation_int h hd c4 h4 c hn
  · exact rollingStockCirc_int h c5 h5 c hn
  · exact switchOccupation_int h hd c6 h6 c hn

theorem bracket_sanitize (s : String) : '[' ∉ (sanitize s).toList := by
  simp only [sanitize, String.toList_ofList, List.mem_map, not_exists, not_and]
  intro c _
  split
  · decide
  · rename_i h
    rintro rfl
    exact h (by decide)

/-- the first two characters of the names of variables -/
theorem var_head (hb : buildProblem ts tt dmax cat = .ok b) {v : LpVar} (hv : v ∈ b.prob.vars) :
    '[' ∉ v.name.toList ∧ ((∃ l, v.name.toList = 'D' :: l) ∨ (∃ l, v.name.toList = 'y' :: l) ∨
      ∃ l, v.name.toList = 'z' :: l) := by
  have P := parts hb
  rcases vars_stored hb hv with ⟨j, s, hd⟩ | ⟨a, c, d, e, ho⟩
  · rw [delayAt_ok, delayVariables_find P.hdv] at hd
    rw [hd.2]
    refine ⟨bracket_sanitize _, .inl ?_⟩
    unfold dVar
    simp only
    exact head_sanitize (by decide) (l := "elays_".toList ++ (key2 j s).toList)
      (by rw [String.toList_append]; rfl)
  · have hyz := orderVariables_isYZ P.hy ho
    constructor
    · rcases hyz with ⟨_, rfl⟩ | rfl <;> exact bracket_sanitize _
    · rcases order_head hyz with ⟨l, hl⟩ | ⟨l, hl⟩
      · exact .inr (.inl ⟨_, hl⟩)
      · exact .inr (.inr ⟨_, hl⟩)

/-- the names of constraints start with other letters -/
theorem constraint_head (hb : buildProblem ts tt dmax cat = .ok b) {k : String}
    (hk : k ∈ Dict.keys b.prob.constraints) :
    '[' ∉ k.toList ∧ ∃ c ∈ ['m', 's', 't', 'c'], ∃ l, k.toList = c :: l := by
  obtain ⟨c1, c2, c3, c4, c5, c6, h1, h2, h3, h4, h5, h6, he, _⟩ := built_constraints hb
  rw [he] at hk
  simp only [Dict.keys, List.map_map, List.mem_map, Function.comp, List.mem_append] at hk
  obtain ⟨c, hc, rfl⟩ := hk
  refine ⟨bracket_sanitize _, ?_⟩
  have key : ∀ (x : Char) (pre : String) (l : List Char), pre.toList = x :: l →
      x ∉ ['-', '+', '[', ']', ' ', '>', '/'] → Origin b.dv b.y pre c →
      ∃ l, (sanitize c.1).toList = x :: l := by
    intro x pre l hp hx ho
    obtain ⟨⟨rest, hr⟩, _⟩ := ho
    exact head_sanitize hx (l := l ++ rest.toList) (by rw [hr, String.toList_append, hp]; rfl)
  rcases hc with ((((hn | hn) | hn) | hn) | hn) | hn
  · exact ⟨'m', by decide, key 'm' _ _ rfl (by decide) (minimalSpan_origin c1 h1 c hn)⟩
  · exact ⟨'m', by decide, key 'm' _ _ rfl (by decide) (minimalStay_origin (y := b.y) c2 h2 c hn)⟩
  · exact ⟨'s', by decide, key 's' _ _ rfl (by decide) (singleLine_origin c3 h3 c hn)⟩
  · exact ⟨'t', by decide, key 't' _ _ rfl (by decide) (trackOccupation_origin c4 h4 c hn)⟩
  · exact ⟨'c', by decide, key 'c' _ _ rfl (by decide)
      (rollingStockCirc_origin (y := b.y) c5 h5 c hn)⟩
  · exact ⟨'s', by decide, key 's' _ _ rfl (by decide) (switchOccupation_origin c6 h6 c hn)⟩

/-- in a built problem the labels are good as soon as different variables have different names -/
theorem built_goodLabels (hb : buildProblem ts tt dmax cat = .ok b)
    (hname : ∀ v ∈ b.prob.vars, ∀ w ∈ b.prob.vars, v.name = w.name → v = w) :
    GoodLabels b.prob := by
  obtain ⟨_, _, _, _, _, _, _, _, _, _, _, _, _, hnd⟩ := built_constraints hb
  constructor
  · rw [List.nodup_append]
    refine ⟨?_, hnd, ?_⟩
    · have : b.prob.vars.Nodup := List.nodup_dedup _
      exact List.Nodup.map_on (fun v hv w hw h => hname v hv w hw h) this
    · rintro a ha k hk rfl
      obtain ⟨v, hv, rfl⟩ := List.mem_map.1 ha
      obtain ⟨_, hv'⟩ := var_head hb hv
      obtain ⟨_, c, hc, l, hl⟩ := constraint_head hb hk
      simp only [List.mem_cons, List.not_mem_nil, or_false] at hc
      rcases hv' with ⟨l', h'⟩ | ⟨l', h'⟩ | ⟨l', h'⟩ <;>
        (rw [h', List.cons.injEq] at hl; obtain ⟨rfl, _⟩ := hl; revert hc; decide)
  · intro s hs
    rcases List.mem_append.1 hs with hs | hs
    · obtain ⟨v, hv, rfl⟩ := List.mem_map.1 hs
      exact (var_head hb hv).1
    · exact (constraint_head hb hs).1

/-- the objective of a point in the domains is between 0 and the total weight -/
theorem objective_range (hb : buildProblem ts tt dmax cat = .ok b) (h0 : 0 ≤ dmax)
    (hw : ∀ c ∈ Calls ts, 0 ≤ Weight tt c.1 c.2) {σ : LpVar → ℚ} (hσ : InDomains b.prob σ) :
    0 ≤ b.prob.objective.eval σ ∧ b.prob.objective.eval σ ≤ TotalWeight ts tt := by
  classical
  have P := parts hb
  let τ : LpVar → ℚ := fun v => if v ∈ b.prob.vars then σ v else 0
  have he : b.prob.objective.eval σ = b.prob.objective.eval τ := by
    unfold LinExpr.eval
    congr 2
    apply List.map_congr_left
    intro t ht
    simp only [τ, if_pos (obj_vars ht)]
  have hadm : Admissible b τ := by
    refine ⟨?_, ?_⟩
    · intro j s v hv
      rw [delayAt_ok, delayVariables_find P.hdv] at hv
      simp only [τ]
      split
      · rename_i hm; exact hσ v hm
      · rw [hv.2]; exact ⟨le_refl _, h0, fun _ => ⟨0, by simp⟩⟩
    · intro a b' c d v hv
      obtain ⟨_, h2, h3, _⟩ := orderVariables_isOrderVar P.hy hv
      simp only [τ]
      split
      · rename_i hm; exact hσ v hm
      · unfold InDomain; rw [h2, h3]
        exact ⟨le_refl _, by norm_num, fun _ => ⟨0, by simp⟩⟩
  obtain ⟨d, hd⟩ := delays_exist b.dv τ
  obtain ⟨_, _, h3⟩ := C17_objective hb hd
  obtain ⟨h4, h5, _⟩ := h3 h0 hadm hw
  rw [he]
  exact ⟨h4, h5⟩

/-- **C24** for built problems: with integer times and `d_max`, non-negative weights and variables
with different names, penalties larger than the sum of all weights (times the weight of the
objective) are enough: every bit string of least energy stands for an optimal solution of the
integer program, and every optimal solution for a bit string of least energy. -/
theorem C24_built (hb : buildProblem ts tt dmax cat = .ok b) (hi : IntTimes tt) (hd : IsInt dmax)
    (h0 : 0 ≤ dmax) (hw : ∀ c ∈ Calls ts, 0 ≤ Weight tt c.1 c.2)
    (hname : ∀ v ∈ b.prob.vars, ∀ w ∈ b.prob.vars, v.name = w.name → v = w)
    {q : Qubo} (h : convertToPyqubo b.prob = .ok q) {pdict : Dict String ℚ} (hp : Priced q pdict)
    (hpos : 0 < price pdict "objective")
    (hbig : ∀ pen ∈ q.penalties,
      price pdict "objective" * TotalWeight ts tt < price pdict pen.placeholder) :
    (∀ x σ, GroundState q pdict x → Decodes b.prob x σ → (∃ τ, IlpFeasible b.prob τ) →
      IlpOptimal b.prob σ ∧
        q.energy pdict x = .ok (price pdict "objective" * b.prob.objective.eval σ)) ∧
    (∀ σ, IlpOptimal b.prob σ → ∃ x, Decodes b.prob x σ ∧ GroundState q pdict x) := by
  refine C24_groundState h (built_integerData hb hi hd) (built_goodLabels hb hname) hp hpos ?_
  intro pen hpen σ τ hσ hτ
  refine lt_of_le_of_lt (mul_le_mul_of_nonneg_left ?_ hpos.le) (hbig pen hpen)
  have h1 := (objective_range hb h0 hw hσ).2
  have h2 := (objective_range hb h0 hw hτ).1
  linarith

/-! ## From bit strings back to a solution -/

theorem interpretSample_reads {p : Problem}
    (hname : ∀ v ∈ p.vars, ∀ w ∈ p.vars, v.name = w.name → v = w) {x : Bits} {s : Sample}
    (h : interpretSample p x = .ok s) : Decodes p x (readSample s) ∧ Reads p s (readSample s) := by
  have hf := mapPy_forall₂ h
  have hkeys : Dict.keys s = p.vars.map (·.name) := by
    clear h hname
    revert hf
    generalize p.vars = l
    intro hf
    induction hf with
    | nil => rfl
    | cons h1 _ ih =>
      obtain ⟨c, _, h1⟩ := bind_ok h1
      cases h1
      simp only [Dict.keys, List.map_cons] at ih ⊢
      rw [ih]
  have hnd : (Dict.keys s).Nodup := by
    rw [hkeys]
    have : p.vars.Nodup := List.nodup_dedup _
    exact List.Nodup.map_on (fun v hv w hw h => hname v hv w hw h) this
  have key : ∀ v ∈ p.vars, ∃ e, bqmVar v = .ok e ∧ Dict.get? s v.name = some (e.eval x) := by
    intro v hv
    obtain ⟨t, ht, h1⟩ := forall₂_left hf hv
    obtain ⟨c, hc, h1⟩ := bind_ok h1
    cases h1
    exact ⟨c, hc, Dict.get?_of_mem hnd ht⟩
  constructor
  · intro v hv
    obtain ⟨e, he, hg⟩ := key v hv
    exact ⟨e, he, by simp [readSample, hg]⟩
  · intro v hv
    obtain ⟨e, he, hg⟩ := key v hv
    simp [readSample, hg]

/-- **C24**, the whole way: if one of the returned bit strings has least energy (penalties as in
`C24_groundState`, feasible problem), the solution chosen by `solve_on_quantum` is an optimal
solution of the integer program. -/
theorem C24_pipeline {p : Problem} {q : Qubo} (h : convertToPyqubo p = .ok q)
    (hi : IntegerData p) (hl : GoodLabels p) {pdict : Dict String ℚ} (hp : Priced q pdict)
    (hw : 0 < price pdict "objective") (hdom : Dominates p q pdict)
    (hfeas : ∃ τ, IlpFeasible p τ) {ss : List (Bits × ℚ)} {x : Bits} {E : ℚ} (hx : (x, E) ∈ ss)
    (hground : GroundState q pdict x) {ss' : List (Sample × ℚ)} (hss : interpret p ss = .ok ss') :
    ∃ r, solveOnQuantum ss' p = .ok r ∧ r.feasible = true ∧ IlpOptimal p (readSample r.sample) ∧
      r.objective = p.objective.eval (readSample r.sample) := by
  have hname : ∀ v ∈ p.vars, ∀ w ∈ p.vars, v.name = w.name → v = w := by
    have := (List.nodup_append.1 hl.1).1
    exact fun v hv w hw h => List.inj_on_of_nodup_map this hv hw h
  have hnd := (List.nodup_append.1 hl.1).2.1
  have hf := mapPy_forall₂ hss
  have hread : ∀ d ∈ ss', (∃ x, Decodes p x (readSample d.1)) ∧ Reads p d.1 (readSample d.1) := by
    intro d hd
    obtain ⟨a, _, h1⟩ := forall₂_right hf hd
    obtain ⟨s, hs, h1⟩ := bind_ok h1
    cases h1
    obtain ⟨h2, h3⟩ := interpretSample_reads hname hs
    exact ⟨⟨_, h2⟩, h3⟩
  obtain ⟨d0, hd0, h1⟩ := forall₂_left hf hx
  obtain ⟨s0, hs0, h1⟩ := bind_ok h1
  cases h1
  obtain ⟨hdec0, hread0⟩ := interpretSample_reads hname hs0
  obtain ⟨hopt, _⟩ := (C24_groundState h hi hl hp hw hdom).1 x _ hground hdec0 hfeas
  obtain ⟨_, hbest⟩ := C26_best (val := readSample) (fun d hd => (hread d hd).2) hnd
  obtain ⟨r, d, hr, hd, hdes, hb1, _⟩ := hbest (by rintro rfl; cases hd0)
  obtain ⟨hsat, hmin⟩ := hb1 ⟨_, hd0, hopt.1.2⟩
  obtain ⟨⟨x', hx'⟩, _⟩ := hread d hd
  have hs : r.sample = d.1 := hdes.1
  refine ⟨r, hr, hdes.2.2.2.1.2 hsat, ?_, ?_⟩
  · rw [hs]
    refine ⟨⟨decodes_domain hx', hsat⟩, fun τ hτ => ?_⟩
    exact (hmin _ hd0 hopt.1.2).trans (hopt.2 τ hτ)
  · rw [hs]; exact hdes.2.2.1

/-! ## Fixed penalties -/

/-- two trains leaving A at the same time, headway two minutes -/
def exampleTwo : TrainSets where
  skipStation := some [(.int 1, .str "B"), (.int 2, .str "B")]
  paths := [(.int 1, [.str "A", .str "B"]), (.int 2, [.str "A", .str "B"])]
  J := [.int 1, .int 2]
  Jd := [(.str "A", [(.str "B", [[.int 1, .int 2]])])]
  Josingle := []
  Jround := []
  Jtrack := []
  Jswitch := []
  addSwithes := .none

/-- both trains have weight `w` -/
def exampleTwoTt (w : ℚ) : Timetable where
  tauPass := [("1_A_B", 5), ("2_A_B", 5)]
  tauHeadway := [("1_2_A_B", 2), ("2_1_A_B", 2)]
  tauStop := []
  tauPrep := []
  tauRes := some 1
  schedule := .none
  initialConditions := [("1_A", 0), ("2_A", 0)]
  penaltyWeights := [("1_A", w), ("2_A", w)]

/-- the penalties used by the scripts (`solve_KO_GLC_problems.py`, line 134 and following) -/
def scriptPenalties : Dict String ℚ :=
  [("minimal_span", 5/2), ("single_line", 5/2), ("minimal_stay", 5/2), ("track_occupation", 5/2),
   ("switch", 5/2), ("circulation", 5/2), ("objective", 1)]

theorem exampleTwo_int (w : ℚ) : IntTimes (exampleTwoTt w) := by
  have key : ∀ d : Dict String ℚ, (d.all fun e => decide (e.2.den = 1)) = true → IntValues d := by
    intro d hd e he
    rw [List.all_eq_true] at hd
    exact isInt_iff_den.2 (by simpa using hd e he)
  let t := exampleTwoTt 0
  refine ⟨key t.tauPass (by decide +kernel), key t.tauHeadway (by decide +kernel),
    key t.tauStop (by decide +kernel), key t.tauPrep (by decide +kernel), ?_, ?_,
    key t.initialConditions (by decide +kernel)⟩
  · intro r hr; cases hr; exact isInt_one
  · intro d hd; cases hd

/-- the variables of the example -/
def exampleD1 : LpVar := dVar (.int 1) (.str "A") 10 .integer
def exampleD2 : LpVar := dVar (.int 2) (.str "A") 10 .integer
def exampleYV : LpVar := yVar (.int 1) (.int 2) (.str "A")

/-- the problem built for the example -/
def exampleTwoProblem (w : ℚ) : Problem where
  constraints :=
    [("minimal_span_2_1_A_B", ⟨⟨[(exampleD2, 1), (exampleD1, -1), (exampleYV, -12)], 10⟩, .ge⟩),
     ("minimal_span_1_2_A_B", ⟨⟨[(exampleD1, 1), (exampleD2, -1), (exampleYV, 12)], -2⟩, .ge⟩)]
  objective := ⟨[(exampleD1, w / 10), (exampleD2, w / 10)], 0⟩

/-- bits: all delays 0, the slack of the first constraint 10 -/
def exampleTwoBits : Bits := fun s =>
  s = "minimal_span_2_1_A_B[1]" || s = "minimal_span_2_1_A_B[3]"

theorem exampleTwo_built (w : ℚ) (hw : w = 1 ∨ w = 100) : ∃ b q,
    buildProblem exampleTwo (exampleTwoTt w) 10 .integer = .ok b ∧
    b.prob = exampleTwoProblem w ∧ convertToPyqubo b.prob = .ok q ∧
    Priced q scriptPenalties ∧ (∀ pen ∈ q.penalties, pen.placeholder = "minimal_span") ∧
    q.energy scriptPenalties exampleTwoBits = .ok 10 := by
  have h : (match buildProblem exampleTwo (exampleTwoTt w) 10 .integer with
    | .ok b => decide (b.prob.constraints = (exampleTwoProblem w).constraints) &&
        decide (b.prob.objective = (exampleTwoProblem w).objective) &&
        (match convertToPyqubo b.prob with
        | .ok q => decide (∀ pen ∈ q.penalties, pen.placeholder = "minimal_span") &&
          (match q.energy scriptPenalties exampleTwoBits with
            | .ok E => decide (E = 10)
            | .error _ => false)
        | .error _ => false)
    | .error _ => false) = true := by
    rcases hw with rfl | rfl <;> decide +kernel
  split at h
  · rename_i b hb
    simp only [Bool.and_eq_true, decide_eq_true_eq] at h
    obtain ⟨⟨h1, h2⟩, h⟩ := h
    split at h
    · rename_i q hq
      simp only [Bool.and_eq_true, decide_eq_true_eq] at h
      obtain ⟨h3, h⟩ := h
      split at h
      · rename_i E hE
        simp only [decide_eq_true_eq] at h
        subst h
        refine ⟨b, q, hb, ?_, hq, ⟨fun pen hpen => ?_, by decide⟩, h3, hE⟩
        · cases hbp : b.prob; simp_all [exampleTwoProblem]
        · rw [h3 pen hpen]; decide
      · cases h
    · cases h
  · cases h

theorem exampleTwo_names (w : ℚ) : ∀ v ∈ (exampleTwoProblem w).vars,
    ∀ u ∈ (exampleTwoProblem w).vars, v.name = u.name → v = u := by
  have : ∀ v ∈ (exampleTwoProblem w).vars, v ∈ [exampleD1, exampleD2, exampleYV] := by
    intro v hv
    simp [Problem.vars, exampleTwoProblem] at hv ⊢
    tauto
  intro v hv u hu
  have key : ∀ v ∈ [exampleD1, exampleD2, exampleYV], ∀ u ∈ [exampleD1, exampleD2, exampleYV],
      v.name = u.name → v = u := by decide +kernel
  exact key v (this v hv) u (this u hu)

theorem exampleTwo_vars (w : ℚ) : exampleD1 ∈ (exampleTwoProblem w).vars ∧
    exampleD2 ∈ (exampleTwoProblem w).vars ∧ exampleYV ∈ (exampleTwoProblem w).vars := by
  simp [Problem.vars, exampleTwoProblem]

/-- feasible: train 2 two minutes after train 1 -/
def exampleTwoσ (v : LpVar) : ℚ := if v = exampleD1 then 0 else if v = exampleD2 then 2 else 1

theorem exampleTwo_feasible (w : ℚ) : IlpFeasible (exampleTwoProblem w) exampleTwoσ := by
  constructor
  · intro v hv
    have : v ∈ [exampleD1, exampleD2, exampleYV] := by
      simp [Problem.vars, exampleTwoProblem] at hv ⊢
      tauto
    have hn : exampleD2 ≠ exampleD1 ∧ exampleYV ≠ exampleD1 ∧ exampleYV ≠ exampleD2 := by
      decide +kernel
    simp only [List.mem_cons, List.not_mem_nil, or_false] at this
    unfold InDomain exampleTwoσ
    rcases this with rfl | rfl | rfl
    · simp only [if_true]
      exact ⟨le_refl _, by norm_num [exampleD1, dVar], fun _ => ⟨0, by norm_num⟩⟩
    · simp only [if_true, if_neg hn.1]
      exact ⟨by norm_num [exampleD2, dVar], by norm_num [exampleD2, dVar], fun _ => ⟨2, by norm_num⟩⟩
    · simp only [if_neg hn.2.1, if_neg hn.2.2]
      exact ⟨by norm_num [exampleYV, yVar], by norm_num [exampleYV, yVar], fun _ => ⟨1, by norm_num⟩⟩
  · intro c hc
    apply Constraint.check_iff.1
    have key : ∀ c ∈ (exampleTwoProblem 0).constraints, c.2.check exampleTwoσ = true := by
      decide +kernel
    exact key c hc

/-- **C24, fixed penalties.** With the fixed penalties 2.5 of the scripts and large weights the
statement fails: there is a feasible problem (integer times, non-negative weights, distinct names)
where some bit string has a smaller energy than every bit string that stands for a feasible
solution. -/
theorem C24_fixed_false : ∃ ts tt dmax b q, buildProblem ts tt dmax .integer = .ok b ∧
    IntTimes tt ∧ IsInt dmax ∧ 0 ≤ dmax ∧ (∀ c ∈ Calls ts, 0 ≤ Weight tt c.1 c.2) ∧
    (∀ v ∈ b.prob.vars, ∀ w ∈ b.prob.vars, v.name = w.name → v = w) ∧
    convertToPyqubo b.prob = .ok q ∧ Priced q scriptPenalties ∧ (∃ τ, IlpFeasible b.prob τ) ∧
    ∃ x E, q.energy scriptPenalties x = .ok E ∧
      ∀ z σ E', Decodes b.prob z σ → IlpFeasible b.prob σ →
        q.energy scriptPenalties z = .ok E' → E < E' := by
  obtain ⟨b, q, hb, hp, hq, hpr, hpl, hE⟩ := exampleTwo_built 100 (.inr rfl)
  refine ⟨_, _, 10, b, q, hb, exampleTwo_int 100, ⟨10, by norm_num⟩, by norm_num,
    by decide +kernel, ?_, hq, hpr, ⟨exampleTwoσ, ?_⟩, exampleTwoBits, 10, hE, ?_⟩
  · rw [hp]; exact exampleTwo_names 100
  · rw [hp]; exact exampleTwo_feasible 100
  · intro z σ E' hd hf hE'
    rw [energy_eq hq hpr hd] at hE'
    have hE'' := Except.ok.inj hE'
    have hs : 0 ≤ (q.penalties.map fun pen =>
        price scriptPenalties pen.placeholder * (pen.expr.eval z) ^ 2).sum := by
      apply List.sum_nonneg
      intro a ha
      obtain ⟨pen, hpen, rfl⟩ := List.mem_map.1 ha
      rw [hpl pen hpen]
      exact mul_nonneg (by decide +kernel) (sq_nonneg _)
    have h1 : price scriptPenalties "objective" = 1 := by decide +kernel
    rw [h1, hp] at hE''
    rw [hp] at hf
    obtain ⟨v1, v2, v3⟩ := exampleTwo_vars 100
    obtain ⟨hd1, _, _⟩ := hf.1 _ v1
    obtain ⟨hd2, _, _⟩ := hf.1 _ v2
    obtain ⟨hy1, hy2, hy3⟩ := hf.1 _ v3
    obtain ⟨n, hn⟩ := hy3 rfl
    have c1 := hf.2 _ (List.mem_cons_self (l := [_]))
    have c2 := hf.2 _ (List.mem_cons_of_mem _ (List.mem_cons_self (l := [])))
    have ho : (exampleTwoProblem 100).objective.eval σ = 10 * σ exampleD1 + 10 * σ exampleD2 := by
      simp only [exampleTwoProblem, LinExpr.eval, List.map_cons, List.map_nil, List.sum_cons,
        List.sum_nil]
      ring
    rw [ho] at hE''
    simp only [Constraint.Holds, LinExpr.eval, List.map_cons, List.map_nil, List.sum_cons,
      List.sum_nil, hn] at c1 c2
    have e1 : exampleD1.low = 0 := rfl
    have e2 : exampleD2.low = 0 := rfl
    have e3 : exampleYV.low = 0 := rfl
    have e4 : exampleYV.up = 1 := rfl
    rw [e1] at hd1; rw [e2] at hd2; rw [e3, hn] at hy1; rw [e4, hn] at hy2
    have n0 : (0 : ℤ) ≤ n := by exact_mod_cast hy1
    have n1 : n ≤ (1 : ℤ) := by exact_mod_cast hy2
    have : n = 0 ∨ n = 1 := by omega
    rcases this with rfl | rfl
    · norm_num at c1 c2; linarith
    · norm_num at c1 c2; linarith

/-- with weights 1 the penalties of the scripts are large enough: the hypotheses of `C24_built` are
met -/
example : ∃ b q, buildProblem exampleTwo (exampleTwoTt 1) 10 .integer = .ok b ∧
    IntTimes (exampleTwoTt 1) ∧ (∀ c ∈ Calls exampleTwo, 0 ≤ Weight (exampleTwoTt 1) c.1 c.2) ∧
    (∀ v ∈ b.prob.vars, ∀ w ∈ b.prob.vars, v.name = w.name → v = w) ∧
    convertToPyqubo b.prob = .ok q ∧ Priced q scriptPenalties ∧
    0 < price scriptPenalties "objective" ∧
    (∀ pen ∈ q.penalties, price scriptPenalties "objective" *
      TotalWeight exampleTwo (exampleTwoTt 1) < price scriptPenalties pen.placeholder) ∧
    ∃ τ, IlpFeasible b.prob τ := by
  obtain ⟨b, q, hb, hp, hq, hpr, hpl, hE⟩ := exampleTwo_built 1 (.inl rfl)
  refine ⟨b, q, hb, exampleTwo_int 1, by decide +kernel, ?_, hq, hpr, by decide +kernel, ?_,
    exampleTwoσ, ?_⟩
  · rw [hp]; exact exampleTwo_names 1
  · intro pen hpen
    rw [hpl pen hpen]
    decide +kernel
  · rw [hp]; exact exampleTwo_feasible 1

/-- the hypotheses of `C23_penalties`, `C24_groundState` and `C24_pipeline` are met -/
example : ∃ b q, buildProblem exampleTwo (exampleTwoTt 1) 10 .integer = .ok b ∧
    convertToPyqubo b.prob = .ok q ∧ IntegerData b.prob ∧ GoodLabels b.prob ∧
    Dominates b.prob q scriptPenalties ∧
    ∃ x, GroundState q scriptPenalties x ∧ ∃ ss, interpret b.prob [(x, 0)] = .ok ss := by
  obtain ⟨b, q, hb, hp, hq, hpr, hpl, hE⟩ := exampleTwo_built 1 (.inl rfl)
  have hi := built_integerData hb (exampleTwo_int 1) ⟨10, by norm_num⟩
  have hl := built_goodLabels hb (by rw [hp]; exact exampleTwo_names 1)
  have hw : ∀ c ∈ Calls exampleTwo, 0 ≤ Weight (exampleTwoTt 1) c.1 c.2 := by decide +kernel
  have hd : Dominates b.prob q scriptPenalties := by
    intro pen hpen σ τ hσ hτ
    have h1 := (objective_range hb (by norm_num) hw hσ).2
    have h2 := (objective_range hb (by norm_num) hw hτ).1
    have h3 : TotalWeight exampleTwo (exampleTwoTt 1) = 2 := by decide +kernel
    have h4 : price scriptPenalties "objective" = 1 := by decide +kernel
    have h5 : price scriptPenalties "minimal_span" = 5 / 2 := by decide +kernel
    rw [hpl pen hpen, h4, h5]
    linarith
  obtain ⟨_, hback⟩ := C24_groundState hq hi hl hpr (by decide +kernel) hd
  have hopt : IlpOptimal b.prob exampleTwoσ := by
    rw [hp]
    refine ⟨exampleTwo_feasible 1, fun τ hτ => ?_⟩
    obtain ⟨v1, v2, v3⟩ := exampleTwo_vars 1
    obtain ⟨hd1, _, _⟩ := hτ.1 _ v1
    obtain ⟨hd2, _, _⟩ := hτ.1 _ v2
    obtain ⟨hy1, hy2, hy3⟩ := hτ.1 _ v3
    obtain ⟨n, hn⟩ := hy3 rfl
    have c1 := hτ.2 _ (List.mem_cons_self (l := [_]))
    have c2 := hτ.2 _ (List.mem_cons_of_mem _ (List.mem_cons_self (l := [])))
    have ho : ∀ σ, (exampleTwoProblem 1).objective.eval σ = (σ exampleD1 + σ exampleD2) / 10 := by
      intro σ
      simp only [exampleTwoProblem, LinExpr.eval, List.map_cons, List.map_nil, List.sum_cons,
        List.sum_nil]
      ring
    have hval : exampleTwoσ exampleD1 = 0 ∧ exampleTwoσ exampleD2 = 2 := by decide +kernel
    rw [ho, ho, hval.1, hval.2]
    simp only [Constraint.Holds, LinExpr.eval, List.map_cons, List.map_nil, List.sum_cons,
      List.sum_nil, hn] at c1 c2
    have e1 : exampleD1.low = 0 := rfl
    have e2 : exampleD2.low = 0 := rfl
    have e3 : exampleYV.low = 0 := rfl
    have e4 : exampleYV.up = 1 := rfl
    rw [e1] at hd1; rw [e2] at hd2; rw [e3, hn] at hy1; rw [e4, hn] at hy2
    have n0 : (0 : ℤ) ≤ n := by exact_mod_cast hy1
    have n1 : n ≤ (1 : ℤ) := by exact_mod_cast hy2
    have : n = 0 ∨ n = 1 := by omega
    rcases this with rfl | rfl
    · norm_num at c1 c2; linarith
    · norm_num at c1 c2; linarith
  obtain ⟨x, hx, hg⟩ := hback _ hopt
  refine ⟨b, q, hb, hq, hi, hl, hd, x, hg, ?_⟩
  have hs : ∃ s, interpretSample b.prob x = .ok s := by
    unfold interpretSample
    have hx' : ∀ v ∈ b.prob.vars, ∃ e, bqmVar v = .ok e := fun v hv => by
      obtain ⟨e, he, _⟩ := hx v hv; exact ⟨e, he⟩
    revert hx'
    generalize b.prob.vars = l
    intro hx'
    induction l with
    | nil => exact ⟨[], rfl⟩
    | cons v l ih =>
      rw [List.forall_mem_cons] at hx'
      obtain ⟨e, he⟩ := hx'.1
      obtain ⟨s, hs⟩ := ih hx'.2
      refine ⟨(v.name, e.eval x) :: s, ?_⟩
      simp only [bind, Except.bind] at hs
      simp only [mapPy, he, hs, bind, Except.bind]
  obtain ⟨s, hs⟩ := hs
  exact ⟨[(s, 0)], by simp only [interpret, mapPy, hs, bind, Except.bind]⟩

/-! ## When the conversion succeeds -/

/-- the constraint holds with strict inequality -/
def Constraint.Strict (σ : LpVar → ℚ) (c : Constraint) : Prop :=
  match c.sense with
  | .le => c.expr.eval σ < 0
  | .ge => 0 < c.expr.eval σ
  | .eq => True

theorem lowestValue_int {data : List (LpVar × ℚ)}
    (h : ∀ t ∈ data, IsInt t.2 ∧ IsInt t.1.low ∧ IsInt t.1.up) : IsInt (lowestValue data) := by
  unfold lowestValue
  induction data with
  | nil => exact isInt_zero
  | cons t data ih =>
    rw [List.forall_mem_cons] at h
    simp only [List.map_cons, List.sum_cons]
    refine IsInt.add (h.1.1.mul ?_) (ih h.2)
    split
    · exact h.1.2.2
    · exact h.1.2.1

theorem slack_succeeds {p : Problem} {data : List (LpVar × ℚ)} {off : ℚ} {name : String}
    (hi : ∀ t ∈ data, IsInt t.2) (ho : IsInt off) (hm : ∀ t ∈ data, t.1 ∈ p.vars)
    (hv : ∀ v ∈ p.vars, IsInt v.low ∧ IsInt v.up) {σ : LpVar → ℚ} (hσ : InDomains p σ)
    (hs : (data.map fun t => t.2 * σ t.1).sum + off < 0) :
    ∃ ub s, getSlackUb data off = .ok ub ∧ logEncInteger name 0 ub = .ok s := by
  have hint : IsInt (-(lowestValue data + off)) := by
    have := (lowestValue_int fun t ht => ⟨hi t ht, hv _ (hm t ht)⟩).add ho
    obtain ⟨n, hn⟩ := this
    exact ⟨-n, by rw [hn]; push_cast; rfl⟩
  have hden := isInt_iff_den.1 hint
  have hget : getSlackUb data off = .ok (-(lowestValue data + off)) := by
    unfold getSlackUb
    simp only [hden, if_true]
  have hb := slackUb_bound hm hget hσ
  obtain ⟨s, hs'⟩ : ∃ s, logEncInteger name 0 (-(lowestValue data + off)) = .ok s := by
    unfold logEncInteger
    rw [if_pos (by linarith), if_pos ⟨rfl, hden⟩]
    exact ⟨_, rfl⟩
  exact ⟨_, s, hget, hs'⟩

/-- **C23**, when the conversion succeeds: integer data, integer variables with integer bounds
`low < up`, constraint names of a known class, and every inequality strictly satisfied by some point
of the domains. -/
theorem C23_succeeds {p : Problem} (hi : IntegerData p)
    (hv : ∀ v ∈ p.vars, v.cat = .integer ∧ IsInt v.low ∧ IsInt v.up ∧ v.low < v.up)
    (hc : ∀ nc ∈ p.constraints, ∃ ph, getPlaceholder nc.1 = .ok ph)
    (hne : p.constraints ≠ [])
    (hs : ∀ nc ∈ p.constraints, ∃ σ, InDomains p σ ∧ nc.2.Strict σ) :
    ∃ q, convertToPyqubo p = .ok q := by
  have hvar : ∀ v ∈ p.vars, ∃ e, bqmVar v = .ok e := by
    intro v hm
    obtain ⟨h1, h2, h3, h4⟩ := hv v hm
    unfold bqmVar
    rw [if_neg (by rw [h1]; decide)]
    split
    · exact ⟨_, rfl⟩
    · unfold logEncInteger
      rw [if_pos h4, if_pos ⟨isInt_iff_den.1 h2, isInt_iff_den.1 h3⟩]
      exact ⟨_, rfl⟩
  have hmap : ∀ {α β : Type} (f : α → Py β) (l : List α), (∀ a ∈ l, ∃ c, f a = .ok c) →
      ∃ cs, mapPy f l = .ok cs := by
    intro α β f l
    induction l with
    | nil => intro _; exact ⟨[], rfl⟩
    | cons a l ih =>
      intro h
      rw [List.forall_mem_cons] at h
      obtain ⟨c, hc⟩ := h.1
      obtain ⟨cs, hcs⟩ := ih h.2
      exact ⟨c :: cs, by simp only [mapPy, hc, hcs]⟩
  obtain ⟨tr, htr⟩ : ∃ tr, bqmVars p = .ok tr := by
    refine hmap _ _ fun v hm => ?_
    obtain ⟨e, he⟩ := hvar v hm
    exact ⟨(v, e), by rw [he]; rfl⟩
  have T := bqmVars_ok htr
  have hsum : ∀ (items : List (LpVar × ℚ)) (c : ℚ), (∀ t ∈ items, t.1 ∈ p.vars) →
      ∃ e, bqmSum tr items c = .ok e := by
    intro items c
    unfold bqmSum
    generalize (⟨[], c⟩ : BitExpr) = e0
    induction items generalizing e0 with
    | nil => intro _; exact ⟨e0, rfl⟩
    | cons t items ih =>
      intro h
      rw [List.forall_mem_cons] at h
      obtain ⟨f, _, hf⟩ := T.var _ h.1
      simp only [loop, Dict.at!_ok.2 hf, bind, Except.bind]
      exact ih _ h.2
  obtain ⟨ps, hps⟩ : ∃ ps, mapPy (bqmPenalty tr) p.constraints = .ok ps := by
    refine hmap _ _ fun nc hnc => ?_
    have hterm : ∀ t ∈ nc.2.expr.terms, t.1 ∈ p.vars := fun t ht => term_vars hnc ht
    obtain ⟨e, he⟩ := hsum nc.2.expr.terms nc.2.expr.const hterm
    obtain ⟨ph, hph⟩ := hc nc hnc
    obtain ⟨σ, hσ, hst⟩ := hs nc hnc
    obtain ⟨i1, i2⟩ := hi nc hnc
    have hbound : ∀ v ∈ p.vars, IsInt v.low ∧ IsInt v.up := fun v hm => ⟨(hv v hm).2.1, (hv v hm).2.2.1⟩
    have : ∃ f, bqmPenaltyExpr nc.1 nc.2 e = .ok f := by
      unfold bqmPenaltyExpr
      cases hsense : nc.2.sense with
      | eq => exact ⟨_, rfl⟩
      | le =>
        simp only [Constraint.Strict, hsense, LinExpr.eval] at hst
        obtain ⟨ub, s, h1, h2⟩ := slack_succeeds (name := nc.1) i1 i2 hterm hbound hσ hst
        simp only [h1, h2, bind, Except.bind]
        exact ⟨_, rfl⟩
      | ge =>
        simp only [Constraint.Strict, hsense, LinExpr.eval] at hst
        have e1 : ((nc.2.expr.terms.map fun t => (t.1, -t.2)).map
            fun t : LpVar × ℚ => t.2 * σ t.1).sum =
            -(nc.2.expr.terms.map fun t => t.2 * σ t.1).sum := by
          generalize nc.2.expr.terms = l
          induction l with
          | nil => simp
          | cons t l ih => simp only [List.map_cons, List.sum_cons, ih]; ring
        obtain ⟨ub, s, h1, h2⟩ := slack_succeeds (name := nc.1)
          (data := nc.2.expr.terms.map fun t => (t.1, -t.2)) (off := -nc.2.expr.const) (p := p)
          (σ := σ)
          (by
            intro t ht
            obtain ⟨t', ht', rfl⟩ := List.mem_map.1 ht
            obtain ⟨n, hn⟩ := i1 t' ht'
            exact ⟨-n, by simp only [hn]; push_cast; rfl⟩)
          (by obtain ⟨n, hn⟩ := i2; exact ⟨-n, by rw [hn]; push_cast; rfl⟩)
          (by
            intro t ht
            obtain ⟨t', ht', rfl⟩ := List.mem_map.1 ht
            exact hterm t' ht') hbound hσ (by rw [e1]; linarith)
        simp only [h1, h2, bind, Except.bind]
        exact ⟨_, rfl⟩
    obtain ⟨f, hf⟩ := this
    refine ⟨⟨ph, f⟩, ?_⟩
    unfold bqmPenalty
    simp only [he, hph, hf, bind, Except.bind]
  obtain ⟨o, ho⟩ : ∃ o, bqmObjective tr p.objective = .ok o := by
    unfold bqmObjective
    split
    · exact ⟨_, rfl⟩
    · obtain ⟨e, he⟩ := hsum p.objective.terms p.objective.const fun t ht => obj_vars ht
      rw [he]; exact ⟨_, rfl⟩
  refine ⟨⟨ps, o⟩, ?_⟩
  unfold convertToPyqubo
  simp only [htr, hps, ho, bind, Except.bind]
  have : ps ≠ [] := by
    rintro rfl
    have := (mapPy_forall₂ hps).length_eq
    simp at this
    exact hne this
  have : ps.isEmpty = false := by cases ps <;> simp_all
  simp [this]

/-- train 3 runs B → A and continues as train 4, which is two minutes too early for the turn-around;
the limit of delays is two minutes -/
def exampleTurn : TrainSets where
  skipStation := some [(.int 3, .str "A"), (.int 4, .str "B")]
  paths := [(.int 3, [.str "B", .str "A"]), (.int 4, [.str "A", .str "B"])]
  J := [.int 3, .int 4]
  Jd := []
  Josingle := []
  Jround := [(.str "A", [(.int 3, .int 4)])]
  Jtrack := []
  Jswitch := []
  addSwithes := .none

def exampleTurnTt : Timetable where
  tauPass := [("3_B_A", 5), ("4_A_B", 5)]
  tauHeadway := []
  tauStop := []
  tauPrep := [("4_A", 2)]
  tauRes := some 1
  schedule := .none
  initialConditions := [("3_B", 0), ("4_A", 5)]
  penaltyWeights := [("4_A", 1)]

/-- train 4 leaves two minutes late -/
def exampleTurnσ (v : LpVar) : ℚ := match v.vid with
  | .delay j _ => if j = .int 4 then 2 else 0
  | .order _ _ _ _ => 0

/-- **C23, limits of the conversion.** A feasible problem built from integer data with `d_max > 0`
may have an inequality that can only hold with equality (here a turn-around that uses up `d_max`);
its slack variable has an empty range and the conversion raises `AssertionError`. -/
theorem C23_converts_false : ∃ ts tt dmax b σ, buildProblem ts tt dmax .integer = .ok b ∧
    0 < dmax ∧ Feasible b σ ∧ convertToPyqubo b.prob = .error .assertionError := by
  have hf : ∃ b, buildProblem exampleTurn exampleTurnTt 2 .integer = .ok b ∧
      Feasible b exampleTurnσ := by
    refine feasible_of_check (by decide +kernel) ?_ ?_
    · intro v j s hv
      unfold exampleTurnσ
      rw [hv]
      simp only
      split
      · exact ⟨by norm_num, by norm_num, 2, by norm_num⟩
      · exact ⟨by norm_num, by norm_num, 0, by norm_num⟩
    · intro v a b c d hv
      unfold exampleTurnσ
      rw [hv]
      exact .inl rfl
  obtain ⟨b, hb, hfe⟩ := hf
  refine ⟨_, _, 2, b, _, hb, by norm_num, hfe, ?_⟩
  have h : (match buildProblem exampleTurn exampleTurnTt 2 .integer with
    | .ok b => (match convertToPyqubo b.prob with
      | .ok _ => false
      | .error e => decide (e = .assertionError))
    | .error _ => false) = true := by decide +kernel
  rw [hb] at h
  simp only at h
  split at h
  · cases h
  · rename_i e he; rw [he, of_decide_eq_true h]

end Verif
