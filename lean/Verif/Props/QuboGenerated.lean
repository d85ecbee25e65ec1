import Verif.Props.QuboConvert
import Verif.Proofs.GenVars
import Verif.Proofs.PlanHits

/-!
# C81: the QUBO of a problem made of timetables
-/

namespace Verif

variable {td : Trains} {st : Stations} {table : List PathRow} {t1 : String}
  {ts : TrainSets} {tt : Timetable} {delays : List (Int × ℚ)} {dmax : ℚ} {cat : Cat} {b : Built}

/-- the classes of constraints that have a penalty of their own
(`/repo/railway_solvers/railway_solvers/converter_bqm.py`, lines 25-38) -/
def penaltyClasses : List String :=
  ["minimal_span", "circulation", "single_line", "minimal_stay", "track_occupation", "switch"]

/-- the objective has a positive weight, and every penalty is larger than this weight times `v` -/
def PenaltiesAbove (pdict : Dict String ℚ) (v : ℚ) : Prop :=
  (∃ w, Dict.get? pdict "objective" = some w ∧ 0 < w) ∧
    ∀ k ∈ penaltyClasses, ∃ x, Dict.get? pdict k = some x ∧ 0 < x ∧ price pdict "objective" * v < x

theorem getPlaceholder_class {n k : String} (h : getPlaceholder n = .ok k) : k ∈ penaltyClasses := by
  unfold getPlaceholder at h
  repeat' split at h
  all_goals first
    | (cases h; decide)
    | cases h

/-- in a problem with two consecutive departures of a train there are constraints -/
theorem constraints_of_run (G : GoodData td st) (hm : AllMeet td) {r : Int}
    (h : makeInput td st table t1 r delays = .ok (ts, tt))
    (hb : buildProblem ts tt dmax cat = .ok b) {t : Int} {rows mid : List Row} {p x : String}
    (ht : TableOf td t rows) (hc : Consecutive rows p x mid) (hl : Leaves td t x) :
    b.prob.constraints ≠ [] := by
  have g := gen_of_input G h
  have P := parts hb
  obtain ⟨c1, c2, c3, c4, c5, c6, -, h2, -, -, -, -, he, -⟩ := built_constraints hb
  have hprev : PrevOf ts (.int t) (.str x) (.str p) :=
    g.prev.2 ⟨t, x, rows, rfl, rfl, ht, .inl ⟨p, mid, rfl, hc⟩⟩
  obtain ⟨v, hv⟩ := ((C16_exactly P.hdv).1 (.int t) (.str x)).2 (g.delay_of_leaves hm hl)
  obtain ⟨path, hpath, hpo⟩ := hprev
  have hv' := hv
  rw [delayAt_ok, delayVariables_find P.hdv] at hv'
  have h2' := h2
  unfold minimalStay at h2'
  obtain ⟨a, ha, hsub⟩ := (collect_ok h2').1 _ hv'.1.1
  rw [Dict.at!_ok.2 hpath] at ha
  simp only [bind, Except.bind] at ha
  obtain ⟨a', ha', hsub'⟩ := (collect_ok ha).1 _ (prevOn_mem hpo)
  obtain ⟨vp, hvp, c, hc', o1, o2⟩ := stay_emits ha' ⟨path, hpath, hpo⟩ (by simp) hv
  rw [he]
  intro hnil
  have := List.map_eq_nil_iff.1 hnil
  have hm := hsub _ (hsub' _ hc')
  simp only [List.append_eq_nil_iff] at this
  rw [this.1.1.1.1.2] at hm
  cases hm

theorem ilpFeasible_of {σ : LpVar → ℚ} (hb : buildProblem ts tt dmax cat = .ok b)
    (h : Feasible b σ) : IlpFeasible b.prob σ := by
  refine ⟨fun v hv => ?_, h.sat⟩
  rcases vars_stored hb hv with ⟨j, s, h1⟩ | ⟨x, y, z, u, h1⟩
  · exact h.adm.delays _ _ _ h1
  · exact h.adm.orders _ _ _ _ _ h1

/-- a solution of the integer program, extended to the variables that do not occur -/
theorem feasible_of_ilp {σ : LpVar → ℚ} (hb : buildProblem ts tt dmax cat = .ok b) (h0 : 0 ≤ dmax)
    (h : IlpFeasible b.prob σ) : ∃ σ', Feasible b σ' ∧ (∀ v ∈ b.prob.vars, σ' v = σ v) ∧
      b.prob.objective.eval σ' = b.prob.objective.eval σ := by
  classical
  have P := parts hb
  let τ : LpVar → ℚ := fun v => if v ∈ b.prob.vars then σ v else 0
  have hτ : ∀ v ∈ b.prob.vars, τ v = σ v := fun v hv => by simp only [τ, if_pos hv]
  refine ⟨τ, ⟨⟨?_, ?_⟩, ?_⟩, hτ, ?_⟩
  · intro j s v hv
    rw [delayAt_ok, delayVariables_find P.hdv] at hv
    simp only [τ]
    split
    · rename_i hm; exact h.1 v hm
    · rw [hv.2]; exact ⟨le_refl _, h0, fun _ => ⟨0, by simp⟩⟩
  · intro a b' c d v hv
    obtain ⟨_, h2, h3, _⟩ := orderVariables_isOrderVar P.hy hv
    simp only [τ]
    split
    · rename_i hm; exact h.1 v hm
    · unfold InDomain; rw [h2, h3]
      exact ⟨le_refl _, by norm_num, fun _ => ⟨0, by simp⟩⟩
  · intro c hc
    have := h.2 c hc
    have e : c.2.expr.eval τ = c.2.expr.eval σ := by
      unfold LinExpr.eval
      congr 2
      apply List.map_congr_left
      intro t ht
      rw [hτ _ (mem_vars.2 (.inr ⟨c, hc, t, ht, rfl⟩))]
    unfold Constraint.Holds at this ⊢
    rw [e]
    exact this
  · unfold LinExpr.eval
    congr 2
    apply List.map_congr_left
    intro t ht
    rw [hτ _ (obj_vars ht)]

/-- The bit strings of least energy of the QUBO are those of the solutions with objective `v`, which is
the smallest value in a solution; the least energy is the weight of the objective times `v`. -/
def QuboExact (b : Built) (q : Qubo) (pdict : Dict String ℚ) (v : ℚ) : Prop :=
  (∃ x, GroundState q pdict x) ∧
  (∀ x, GroundState q pdict x → q.energy pdict x = .ok (price pdict "objective" * v) ∧
    ∃ σ, Decodes b.prob x σ ∧ Feasible b σ ∧ b.prob.objective.eval σ = v) ∧
  (∀ σ, Feasible b σ → v ≤ b.prob.objective.eval σ ∧
    (b.prob.objective.eval σ = v → ∃ x, Decodes b.prob x σ ∧ GroundState q pdict x))

/-- every class of constraints has a penalty that is not negative, and the objective has a positive weight -/
def PenaltiesSet (pdict : Dict String ℚ) : Prop :=
  (∃ w, Dict.get? pdict "objective" = some w ∧ 0 < w) ∧
    ∀ k ∈ penaltyClasses, ∃ x, Dict.get? pdict k = some x ∧ 0 ≤ x

theorem PenaltiesAbove.set {pdict : Dict String ℚ} {v : ℚ} (h : PenaltiesAbove pdict v) :
    PenaltiesSet pdict :=
  ⟨h.1, fun k hk => by
    obtain ⟨x, hx, h0, -⟩ := h.2 k hk
    exact ⟨x, hx, h0.le⟩⟩

theorem satisfies_congr {p : Problem} {σ τ : LpVar → ℚ} (h : ∀ v ∈ p.vars, σ v = τ v)
    (hs : Satisfies p σ) : Satisfies p τ := by
  intro nc hnc
  have := hs nc hnc
  have e : nc.2.expr.eval τ = nc.2.expr.eval σ := by
    unfold LinExpr.eval
    congr 2
    exact List.map_congr_left fun t ht => by rw [h _ (term_vars hnc ht)]
  unfold Constraint.Holds at this ⊢
  rw [e]
  exact this

/-- For a built problem with whole times that can be converted and whose best value is `v`: the bit strings of
least energy are those of the best solutions if and only if every point of the domains that is not a solution
costs more than `v` times the weight of the objective. -/
theorem qubo_exact_iff (hb : buildProblem ts tt dmax cat = .ok b) (hI : IntTimes tt) (hi : IsInt dmax)
    (h0 : 0 ≤ dmax) (hname : ∀ v ∈ b.prob.vars, ∀ w ∈ b.prob.vars, v.name = w.name → v = w)
    {q : Qubo} (hq : convertToPyqubo b.prob = .ok q)
    {pdict : Dict String ℚ} (hP : PenaltiesSet pdict) {v : ℚ}
    (hv : ∃ σ, Feasible b σ ∧ b.prob.objective.eval σ = v)
    (hmin : ∀ σ, Feasible b σ → v ≤ b.prob.objective.eval σ) : QuboExact b q pdict v ↔
      ∀ σ, InDomains b.prob σ → ¬ Satisfies b.prob σ →
        price pdict "objective" * v < softCost b.prob pdict σ := by
  have hID := built_integerData hb hI hi
  have hGL := built_goodLabels hb hname
  obtain ⟨⟨w, hw1, hw2⟩, hpr⟩ := hP
  have hpw : price pdict "objective" = w := by unfold price; rw [hw1]; rfl
  have hcls : ∀ pen ∈ q.penalties, pen.placeholder ∈ penaltyClasses := by
    intro pen hpen
    obtain ⟨σ, -, -, hf⟩ := (C23_penalties hq hID).1 (fun _ => false)
    obtain ⟨nc, -, h1, -⟩ := forall₂_right hf hpen
    exact getPlaceholder_class h1
  have hPr : Priced q pdict := by
    refine ⟨fun pen hpen => ?_, ?_⟩
    · obtain ⟨x, hx, -⟩ := hpr _ (hcls pen hpen)
      unfold Dict.has; rw [hx]; rfl
    · unfold Dict.has; rw [hw1]; rfl
  have hp0 : ∀ pen ∈ q.penalties, 0 ≤ price pdict pen.placeholder := by
    intro pen hpen
    obtain ⟨x, hx, hx0⟩ := hpr _ (hcls pen hpen)
    unfold price; rw [hx]; exact hx0
  have hopt : ∀ σ, IlpOptimal b.prob σ → b.prob.objective.eval σ = v := by
    intro σ hσ
    obtain ⟨σ0, hσ0, rfl⟩ := hv
    obtain ⟨σ1, hσ1, -, e1⟩ := feasible_of_ilp hb h0 hσ.1
    have := hmin σ1 hσ1
    have := hσ.2 σ0 (ilpFeasible_of hb hσ0)
    linarith
  have hopt' : ∀ σ, Feasible b σ → b.prob.objective.eval σ = v → IlpOptimal b.prob σ := by
    intro σ hσ hσv
    refine ⟨ilpFeasible_of hb hσ, fun τ hτ => ?_⟩
    obtain ⟨τ1, hτ1, -, e1⟩ := feasible_of_ilp hb h0 hτ
    have := hmin τ1 hτ1
    linarith
  constructor
  · rintro ⟨⟨x0, hx0⟩, hex, -⟩ σ hσ hns
    by_contra hle
    rw [not_lt] at hle
    obtain ⟨x, hd, hE⟩ := (C24_soft hq hID hGL hPr hp0).2 σ hσ
    have hE0 := (hex x0 hx0).1
    obtain ⟨E0, e0, hmin0⟩ := hx0
    rw [e0] at hE0
    cases hE0
    have hG : GroundState q pdict x := ⟨_, hE, fun y E' hy => hle.trans (hmin0 y E' hy)⟩
    obtain ⟨-, σ', hd', hf, -⟩ := hex x hG
    refine hns (satisfies_congr (fun u hu => ?_) hf.sat)
    obtain ⟨e, he, q1⟩ := hd u hu
    obtain ⟨e', he', q2⟩ := hd' u hu
    rw [he] at he'
    cases he'
    rw [q1, q2]
  · intro hhard
    obtain ⟨τ, hτ, hτv⟩ := hv
    obtain ⟨k1, k2⟩ := C24_hard hq hID hGL hPr hp0 (by rw [hpw]; exact hw2) (ilpFeasible_of hb hτ)
      (by rw [hτv]; exact hhard)
    refine ⟨?_, fun x hx => ?_, fun σ hσ => ⟨hmin σ hσ, fun hσv => k2 σ (hopt' σ hσ hσv)⟩⟩
    · obtain ⟨x, -, hx⟩ := k2 τ (hopt' τ hτ hτv)
      exact ⟨x, hx⟩
    · obtain ⟨σ, hσ, -⟩ := (C23_penalties hq hID).1 x
      obtain ⟨o1, o2⟩ := k1 x σ hx hσ
      obtain ⟨σ1, hσ1, hs, e1⟩ := feasible_of_ilp hb h0 o1.1
      refine ⟨by rw [o2, hopt σ o1], σ1, fun u hu => ?_, hσ1, by rw [e1, hopt σ o1]⟩
      rw [hs u hu]
      exact hσ u hu

/-- the points of the domains have whole numbers as values if the problem can be converted -/
theorem domains_int {p : Problem} {q : Qubo} (hq : convertToPyqubo p = .ok q) {σ : LpVar → ℚ}
    (hσ : InDomains p σ) : ∀ v ∈ p.vars, ∃ n : ℤ, σ v = n := by
  intro v hv
  refine (hσ v hv).2.2 ?_
  unfold convertToPyqubo at hq
  obtain ⟨tr, htr, -⟩ := bind_ok hq
  obtain ⟨e, he, _⟩ := (bqmVars_ok htr).var v hv
  unfold bqmVar at he
  split at he
  · cases he
  · cases hc : v.cat <;> simp_all

/-- a point that is not a solution costs at least one penalty more than its objective -/
theorem softCost_violated (hb : buildProblem ts tt dmax cat = .ok b) (hI : IntTimes tt) (hi : IsInt dmax)
    {q : Qubo} (hq : convertToPyqubo b.prob = .ok q) {pdict : Dict String ℚ} {c : ℚ}
    (hP : ∀ k ∈ penaltyClasses, c ≤ price pdict k) (hc : 0 ≤ c) {σ : LpVar → ℚ}
    (hσ : InDomains b.prob σ) (hn : ¬ Satisfies b.prob σ) :
    c + price pdict "objective" * b.prob.objective.eval σ ≤ softCost b.prob pdict σ := by
  have hID := built_integerData hb hI hi
  have hcl : ∀ nc ∈ b.prob.constraints, c ≤ classPrice pdict nc.1 := by
    intro nc hnc
    obtain ⟨σ, -, -, hf⟩ := (C23_penalties hq hID).1 (fun _ => false)
    obtain ⟨pen, -, h1, -⟩ := forall₂_left hf hnc
    unfold classPrice
    rw [h1]
    exact hP _ (getPlaceholder_class h1)
  unfold Satisfies at hn
  push Not at hn
  obtain ⟨nc, hnc, hv⟩ := hn
  have h1 : classPrice pdict nc.1 * (nc.2.excess σ) ^ 2 ≤
      (b.prob.constraints.map fun nc => classPrice pdict nc.1 * (nc.2.excess σ) ^ 2).sum := by
    apply List.single_le_sum
    · intro a ha
      obtain ⟨nc', hnc', rfl⟩ := List.mem_map.1 ha
      exact mul_nonneg (hc.trans (hcl nc' hnc')) (sq_nonneg _)
    · exact List.mem_map.2 ⟨nc, hnc, rfl⟩
  have h2 : (1 : ℚ) ≤ (nc.2.excess σ) ^ 2 := one_le_pow₀ (excess_one hID hnc (domains_int hq hσ) hv)
  have h3 := mul_le_mul_of_nonneg_left h2 (hc.trans (hcl nc hnc))
  have h4 := hcl nc hnc
  unfold softCost
  linarith

/-- For a built problem with whole times that can be converted: with penalties larger than the best value of
the objective the bit strings of least energy are those of the best solutions. -/
theorem qubo_exact (hb : buildProblem ts tt dmax cat = .ok b) (hI : IntTimes tt) (hi : IsInt dmax)
    (h0 : 0 ≤ dmax) (hname : ∀ v ∈ b.prob.vars, ∀ w ∈ b.prob.vars, v.name = w.name → v = w)
    (hwt : ∀ c ∈ Calls ts, 0 ≤ Weight tt c.1 c.2) {q : Qubo} (hq : convertToPyqubo b.prob = .ok q)
    {pdict : Dict String ℚ} {τ : LpVar → ℚ} (hτ : Feasible b τ)
    (hP : PenaltiesAbove pdict (b.prob.objective.eval τ)) {v : ℚ}
    (hv : ∃ σ, Feasible b σ ∧ b.prob.objective.eval σ = v)
    (hmin : ∀ σ, Feasible b σ → v ≤ b.prob.objective.eval σ) : QuboExact b q pdict v := by
  refine (qubo_exact_iff hb hI hi h0 hname hq hP.set hv hmin).2 fun σ hσ hn => ?_
  obtain ⟨⟨w, hw1, hw2⟩, hpr⟩ := hP
  have hpw : price pdict "objective" = w := by unfold price; rw [hw1]; rfl
  have hvτ := mul_le_mul_of_nonneg_left (hmin τ hτ) hw2.le
  have hobj := mul_nonneg hw2.le (objective_range hb h0 hwt hσ).1
  have hv0 : 0 ≤ w * b.prob.objective.eval τ :=
    mul_nonneg hw2.le (objective_range hb h0 hwt (ilpFeasible_of hb hτ).1).1
  rw [hpw] at hpr ⊢
  -- the smallest penalty
  obtain ⟨c, hc, hc'⟩ : ∃ c, (∀ k ∈ penaltyClasses, c ≤ price pdict k) ∧ w * b.prob.objective.eval τ < c := by
    choose! f hf using hpr
    have hne : penaltyClasses.map f ≠ [] := by simp [penaltyClasses]
    refine ⟨(penaltyClasses.map f).min hne, fun k hk => ?_, ?_⟩
    · unfold price
      rw [(hf k hk).1]
      exact List.min_le_of_mem (List.mem_map_of_mem hk)
    · obtain ⟨k, hk, e⟩ := List.mem_map.1 (List.min_mem hne)
      rw [← e]
      exact (hf k hk).2.2
  have := softCost_violated hb hI hi hq hc (hv0.trans hc'.le) hσ hn
  rw [hpw] at this
  linarith

/-- **C81**, when the penalties are large enough. A problem made of timetables with whole turnaround times,
given delays and `d_max` can be converted to a QUBO if it has a solution for a smaller `d_max`. The bit strings
of least energy are exactly those of the best solutions if and only if every point of the domains that is not
a solution costs more than the best solutions. -/
theorem C81_iff (G : GoodData td st) (hm : AllMeet td) (hn : NamesClear td st) (hw : WholeTurnarounds td)
    (hd : ∀ d ∈ delays, IsInt d.2) (h : makeInput td st table t1 1 delays = .ok (ts, tt))
    (hb : buildProblem ts tt dmax .integer = .ok b) (hi : IsInt dmax)
    {D : ℚ} (hD : 0 ≤ D) (hlt : D < dmax) {cat' : Cat} {b' : Built}
    (hb' : buildProblem ts tt D cat' = .ok b') {σ' : LpVar → ℚ} (hf' : Feasible b' σ')
    {t : Int} {rows mid : List Row} {p x : String} (ht : TableOf td t rows)
    (hc : Consecutive rows p x mid) (hl : Leaves td t x) :
    ∃ q, convertToPyqubo b.prob = .ok q ∧ ∀ pdict, PenaltiesSet pdict → ∀ v, (∃ σ, Feasible b σ ∧
        b.prob.objective.eval σ = v) → (∀ σ, Feasible b σ → v ≤ b.prob.objective.eval σ) →
      (QuboExact b q pdict v ↔ ∀ σ, InDomains b.prob σ → ¬ Satisfies b.prob σ →
        price pdict "objective" * v < softCost b.prob pdict σ) := by
  have g := gen_of_input G h
  have h0 : 0 < dmax := lt_of_le_of_lt hD hlt
  have hnn : ∀ j path, Dict.get? ts.paths j = some path → Val.none ∉ path := by
    intro j path hj hno
    obtain ⟨t, rows, rfl, -, rfl⟩ := g.path.1 hj
    obtain ⟨x, -, hx⟩ := List.mem_map.1 hno
    cases hx
  have hI := intTimes_generated hw hd h
  obtain ⟨q, hq⟩ := (C23_converts hb hI hi h0 hnn (constraints_of_run G hm h hb ht hc hl)).2
    (room_of_solution hb' hnn hD hf' hlt)
  exact ⟨q, hq, fun pdict hP v hv hmin =>
    qubo_exact_iff hb hI hi h0.le (varNames_generated G hn h hb) hq hP hv hmin⟩

/-- **C81.** A problem made of timetables with whole turnaround times, given delays and `d_max` can be
converted to a QUBO if it has a solution for a smaller `d_max`. With penalties larger than the objective
in some known solution the bit strings of least energy are exactly those of the best solutions. -/
theorem C81_generated (G : GoodData td st) (hm : AllMeet td) (hn : NamesClear td st) (hw : WholeTurnarounds td)
    (hd : ∀ d ∈ delays, IsInt d.2) (h : makeInput td st table t1 1 delays = .ok (ts, tt))
    (hb : buildProblem ts tt dmax .integer = .ok b) (hi : IsInt dmax)
    {D : ℚ} (hD : 0 ≤ D) (hlt : D < dmax) {cat' : Cat} {b' : Built}
    (hb' : buildProblem ts tt D cat' = .ok b') {σ' : LpVar → ℚ} (hf' : Feasible b' σ')
    {t : Int} {rows mid : List Row} {p x : String} (ht : TableOf td t rows)
    (hc : Consecutive rows p x mid) (hl : Leaves td t x) :
    ∃ q, convertToPyqubo b.prob = .ok q ∧ ∀ pdict τ, Feasible b τ →
      PenaltiesAbove pdict (b.prob.objective.eval τ) → ∀ v, (∃ σ, Feasible b σ ∧
        b.prob.objective.eval σ = v) → (∀ σ, Feasible b σ → v ≤ b.prob.objective.eval σ) →
      QuboExact b q pdict v := by
  have g := gen_of_input G h
  have h0 : 0 < dmax := lt_of_le_of_lt hD hlt
  have hnn : ∀ j path, Dict.get? ts.paths j = some path → Val.none ∉ path := by
    intro j path hj hno
    obtain ⟨t, rows, rfl, -, rfl⟩ := g.path.1 hj
    obtain ⟨x, -, hx⟩ := List.mem_map.1 hno
    cases hx
  have hI := intTimes_generated hw hd h
  obtain ⟨q, hq⟩ := (C23_converts hb hI hi h0 hnn (constraints_of_run G hm h hb ht hc hl)).2
    (room_of_solution hb' hnn hD hf' hlt)
  refine ⟨q, hq, fun pdict τ hτ hP v hv hmin => ?_⟩
  exact qubo_exact hb hI hi h0.le (varNames_generated G hn h hb) (fun c _ => weights_generated h c.1 c.2)
    hq hτ hP hv hmin

end Verif
