import Verif.Props.QuboGenerated
import Verif.Props.SolverTests
import Verif.Tests.Track
import Verif.Props.TausTable
import Verif.Tests.QuboInputs

/-!
# C82: the test that solves the problems of `inputs4QUBO` by simulated annealing

`/repo/railway_solvers/test/test_solving_QUBO.py`, `test_all_files`.
-/

namespace Verif

open SolverTests

/-- all times are whole -/
def wholeTimes (tt : Timetable) : Bool :=
  let f : Dict String ℚ → Bool := fun d => d.all fun x => x.2.den == 1
  f tt.tauPass && f tt.tauHeadway && f tt.tauStop && f tt.tauPrep &&
    (tt.tauRes.all fun r => r.den == 1) && (tt.schedule.all f) && f tt.initialConditions

theorem isInt_of_den {x : ℚ} (h : x.den = 1) : IsInt x := ⟨x.num, ((Rat.den_eq_one_iff x).1 h).symm⟩

theorem wholeTimes_spec {tt : Timetable} (h : wholeTimes tt = true) : IntTimes tt := by
  have key : ∀ d : Dict String ℚ, (d.all fun x => x.2.den == 1) = true → IntValues d := by
    intro d hd x hx
    rw [List.all_eq_true] at hd
    exact isInt_of_den (by simpa using hd x hx)
  unfold wholeTimes at h
  simp only [Bool.and_eq_true] at h
  obtain ⟨⟨⟨⟨⟨⟨h1, h2⟩, h3⟩, h4⟩, h5⟩, h6⟩, h7⟩ := h
  refine ⟨key _ h1, key _ h2, key _ h3, key _ h4, fun r hr => ?_, fun d hd => ?_, key _ h7⟩
  · rw [hr] at h5
    exact isInt_of_den (by simpa using h5)
  · rw [hd] at h6
    exact key _ (by simpa using h6)

/-- the penalties of the test, lines 114-123 -/
def testPenalties : Dict String ℚ :=
  [("minimal_span", 5/2), ("single_line", 5/2), ("minimal_stay", 5/2), ("track_occupation", 5/2),
    ("switch", 5/2), ("occupation", 5/2), ("circulation", 5/2), ("objective", 1)]

/-- the files in `test/inputs4QUBO` -/
def quboFiles : List (String × Case) :=
  [("5_trains_all_cases", QuboInputs.fiveTrains), ("QIP_case_default", QuboInputs.qipDefault),
    ("QIP_case_rerouted", QuboInputs.qipRerouted), ("many_trains_single_line", QuboInputs.manyTrains),
    ("mo_on_the_line", QuboInputs.onTheLine), ("rolling_stock_circulation", QuboInputs.circulation),
    ("station_track_and_circ", QuboInputs.trackCirc), ("track_occupation_simplest", QuboInputs.track),
    ("two_trains_going_one_way_simplest", QuboInputs.oneWay),
    ("two_trains_going_opposite_ways_simplest", QuboInputs.oppositeWays)]

/-- the assertion about the objective for some of the files, lines 62-67 (`round(x, 2) == 0.2` for exact
numbers) -/
def AssertedValue (file : String) (x : ℚ) : Prop :=
  if file = "two_trains_going_one_way_simplest" then |x - 1/5| ≤ 1/200
  else if file = "rolling_stock_circulation" then |x - 2/5| ≤ 1/200
  else if file = "mo_on_the_line" then x < 6/5 else True

/-- the assertions of `compute_single_file` about the chosen sample, lines 58-67 -/
structure QuboPasses (file : String) (r : Record) : Prop where
  feasible : r.feasible = true
  count : r.feasConstraints.1.length = r.feasConstraints.2
  all : ∀ x ∈ r.feasConstraints.1, x.2 = true
  objective : AssertedValue file r.objective

/-- the conditions on the objective that make its values multiples of a hundredth -/
def hundredths (e : LinExpr) : Bool :=
  e.const == 0 && e.terms.all fun t => (100 * t.2).den == 1 && decide (t.1.cat = .integer)

/-- the conditions that the kernel checks -/
def Case.quboOK (c : Case) : Bool :=
  wholeTimes c.tt && c.dmax.den == 1 && decide (0 ≤ c.dmax) && decide (c.objective < 5/2) &&
  (100 * c.objective).den == 1 && decide (c.cat = .integer) &&
  (Calls c.ts).all (fun x => decide (0 ≤ Weight c.tt x.1 x.2)) &&
  match buildProblem c.ts c.tt c.dmax c.cat with
  | .error _ => false
  | .ok b => (match convertToPyqubo b.prob with
      | .ok _ => true
      | .error _ => false) && decide (b.prob.vars.map LpVar.name).Nodup &&
      hundredths b.prob.objective

theorem names_inj {p : Problem} (h : (p.vars.map LpVar.name).Nodup) :
    ∀ v ∈ p.vars, ∀ w ∈ p.vars, v.name = w.name → v = w :=
  fun _ hv _ hw e => List.inj_on_of_nodup_map h hv hw e

/-- the samples that the interpreter makes of bit strings -/
theorem interpret_reads {p : Problem} (h : ∀ v ∈ p.vars, ∀ w ∈ p.vars, v.name = w.name → v = w)
    {ss : List (Bits × ℚ)} {ss' : List (Sample × ℚ)} (hss : interpret p ss = .ok ss') :
    (∀ d ∈ ss', ∃ a ∈ ss, Decodes p a.1 (readSample d.1) ∧ Reads p d.1 (readSample d.1)) ∧
    ∀ a ∈ ss, ∃ d ∈ ss', Decodes p a.1 (readSample d.1) := by
  have hf := mapPy_forall₂ hss
  constructor
  · intro d hd
    obtain ⟨a, ha, h1⟩ := forall₂_right hf hd
    obtain ⟨s, hs, h1⟩ := bind_ok h1
    cases h1
    exact ⟨a, ha, interpretSample_reads h hs⟩
  · intro a ha
    obtain ⟨d, hd, h1⟩ := forall₂_left hf ha
    obtain ⟨s, hs, h1⟩ := bind_ok h1
    cases h1
    exact ⟨_, hd, (interpretSample_reads h hs).1⟩

theorem decodes_unique {p : Problem} {x : Bits} {σ τ : LpVar → ℚ} (h1 : Decodes p x σ)
    (h2 : Decodes p x τ) : ∀ v ∈ p.vars, σ v = τ v := by
  intro v hv
  obtain ⟨e, he, hs⟩ := h1 v hv
  obtain ⟨e', he', ht⟩ := h2 v hv
  rw [he] at he'
  cases he'
  rw [hs, ht]

theorem eval_agree {p : Problem} {σ τ : LpVar → ℚ} (h : ∀ v ∈ p.vars, σ v = τ v) :
    p.objective.eval σ = p.objective.eval τ := by
  unfold LinExpr.eval
  congr 2
  exact List.map_congr_left fun t ht => by rw [h _ (obj_vars ht)]

theorem satisfies_agree {p : Problem} {σ τ : LpVar → ℚ} (h : ∀ v ∈ p.vars, σ v = τ v)
    (hs : Satisfies p τ) : Satisfies p σ := by
  intro c hc
  have := hs c hc
  have e : c.2.expr.eval σ = c.2.expr.eval τ := by
    unfold LinExpr.eval
    congr 2
    exact List.map_congr_left fun t ht => by rw [h _ (term_vars hc ht)]
  unfold Constraint.Holds at this ⊢
  rw [e]
  exact this

/-- a converted problem's samples can be read -/
theorem interpret_succeeds {p : Problem} {q : Qubo} (h : convertToPyqubo p = .ok q)
    (ss : List (Bits × ℚ)) : ∃ ss', interpret p ss = .ok ss' := by
  obtain ⟨tr, htr, -⟩ := bind_ok h
  have hv : ∀ v ∈ p.vars, ∃ e, bqmVar v = .ok e := by
    intro v hv
    obtain ⟨t, _, h1⟩ := forall₂_left (mapPy_forall₂ htr) hv
    obtain ⟨c, hc, _⟩ := bind_ok h1
    exact ⟨c, hc⟩
  apply mapPy_succeeds
  intro d _
  obtain ⟨s, hs⟩ : ∃ s, interpretSample p d.1 = .ok s := by
    apply mapPy_succeeds
    intro v hv'
    obtain ⟨e, he⟩ := hv v hv'
    exact ⟨(v.name, e.eval d.1), by rw [he]; rfl⟩
  exact ⟨(s, d.2), by rw [hs]; rfl⟩

/-- If a solution is among the samples, the chosen sample is a solution at least as good, and all
constraints are reported as satisfied. -/
theorem chosen_best {b : Built}
    (hname : ∀ v ∈ b.prob.vars, ∀ w ∈ b.prob.vars, v.name = w.name → v = w)
    (hc : (Dict.keys b.prob.constraints).Nodup)
    {ss : List (Bits × ℚ)} {a : Bits × ℚ} (hx : a ∈ ss) {σ : LpVar → ℚ} (hdec : Decodes b.prob a.1 σ)
    (hf : Feasible b σ) {ss' : List (Sample × ℚ)} (hss : interpret b.prob ss = .ok ss') :
    ∃ r, solveOnQuantum ss' b.prob = .ok r ∧ r.feasible = true ∧
      r.feasConstraints.1.length = r.feasConstraints.2 ∧ (∀ y ∈ r.feasConstraints.1, y.2 = true) ∧
      r.objective ≤ b.prob.objective.eval σ := by
  obtain ⟨hread, hall⟩ := interpret_reads hname hss
  obtain ⟨d0, hd0, hdec0⟩ := hall _ hx
  have heq := decodes_unique hdec0 hdec
  have hsat0 : Satisfies b.prob (readSample d0.1) := satisfies_agree heq hf.sat
  have hobj0 := eval_agree heq
  obtain ⟨_, hbest⟩ := C26_best (val := readSample) (fun d hd => (hread d hd).choose_spec.2.2) hc
  obtain ⟨r, d, hr, hd, hdes, hb1, _⟩ := hbest (by rintro rfl; cases hd0)
  obtain ⟨hsat, hmin⟩ := hb1 ⟨_, hd0, hsat0⟩
  obtain ⟨e, n, he, hfa, hn⟩ := analyze_spec (hread d hd).choose_spec.2.2 hc
  have hcon : r.feasConstraints = (e, n) := by
    have := hdes.2.2.2.2
    rw [he] at this
    exact (Except.ok.inj this).symm
  have htrue : ∀ y ∈ e, y.2 = true := by
    intro y hy
    obtain ⟨nc, hnc, h1⟩ := forall₂_right hfa hy
    exact h1.2.2 (hsat _ hnc)
  refine ⟨r, hr, hdes.2.2.2.1.2 hsat, ?_, ?_, ?_⟩
  · rw [hcon]
    show e.length = n
    rw [hn]
    clear hn hcon hfa he
    induction e with
    | nil => rfl
    | cons y e ih =>
      simp only [List.length_cons, List.map_cons, List.sum_cons]
      rw [← ih (fun z hz => htrue z (by simp [hz])), if_pos (htrue y (by simp))]
      omega
  · rw [hcon]; exact htrue
  · rw [hdes.2.2.1, ← hobj0]
    exact hmin _ hd0 hsat0

/-- If the chosen solution is reported as feasible, it is one of the samples and a solution. -/
theorem chosen_sound {ts : TrainSets} {tt : Timetable} {dmax : ℚ} {cat : Cat} {b : Built}
    (hb : buildProblem ts tt dmax cat = .ok b) (h0 : 0 ≤ dmax)
    (hname : ∀ v ∈ b.prob.vars, ∀ w ∈ b.prob.vars, v.name = w.name → v = w)
    (hc : (Dict.keys b.prob.constraints).Nodup) {ss : List (Bits × ℚ)} {ss' : List (Sample × ℚ)}
    (hss : interpret b.prob ss = .ok ss') {r : Record} (hr : solveOnQuantum ss' b.prob = .ok r)
    (hf : r.feasible = true) :
    ∃ a ∈ ss, ∃ σ, Decodes b.prob a.1 σ ∧ Feasible b σ ∧ b.prob.objective.eval σ = r.objective := by
  obtain ⟨hread, _⟩ := interpret_reads hname hss
  obtain ⟨hnil, hbest⟩ := C26_best (val := readSample) (fun d hd => (hread d hd).choose_spec.2.2) hc
  obtain ⟨r', d, hr', hd, hdes, -⟩ := hbest (by
    intro h
    rw [hnil h] at hr
    cases hr)
  cases hr.symm.trans hr'
  obtain ⟨a, ha, hdec, -⟩ := hread d hd
  obtain ⟨σ, h1, h2, h3⟩ := feasible_of_ilp hb h0 ⟨decodes_domain hdec, hdes.2.2.2.1.1 hf⟩
  refine ⟨a, ha, σ, fun v hv => ?_, h1, h3.trans hdes.2.2.1.symm⟩
  rw [h2 v hv]
  exact hdec v hv

/-- the values in solutions are multiples of a hundredth -/
theorem hundredth {ts : TrainSets} {tt : Timetable} {dmax : ℚ} {cat : Cat} {b : Built}
    (hb : buildProblem ts tt dmax cat = .ok b) (h : hundredths b.prob.objective = true) {σ : LpVar → ℚ}
    (hf : Feasible b σ) : IsInt (100 * b.prob.objective.eval σ) := by
  have hi := ilpFeasible_of hb hf
  have key : ∀ l : List (LpVar × ℚ), (∀ t ∈ l, IsInt (σ t.1)) → (∀ t ∈ l, IsInt (100 * t.2)) →
      IsInt (100 * (l.map fun t => t.2 * σ t.1).sum) := by
    intro l
    induction l with
    | nil => intro _ _; exact ⟨0, by simp⟩
    | cons t l ih =>
      intro h1 h2
      obtain ⟨n, hn⟩ := ih (fun t ht => h1 t (by simp [ht])) (fun t ht => h2 t (by simp [ht]))
      obtain ⟨m, hm⟩ := h1 t (by simp)
      obtain ⟨k, hk⟩ := h2 t (by simp)
      refine ⟨k * m + n, ?_⟩
      simp only [List.map_cons, List.sum_cons, mul_add, hn, Int.cast_add, Int.cast_mul, ← hk, ← hm]
      ring
  unfold hundredths at h
  simp only [Bool.and_eq_true, beq_iff_eq, List.all_eq_true, decide_eq_true_eq] at h
  unfold LinExpr.eval
  rw [h.1, add_zero]
  exact key _ (fun t ht => (hi.1 _ (obj_vars ht)).2.2 (h.2 t ht).2) fun t ht => isInt_of_den (h.2 t ht).1

/-! ## The inputs -/

theorem quboFiles_ok : ∀ f ∈ quboFiles, f.2.quboOK = true := by decide +kernel

theorem fiveTrains_input : QuboInputs.fiveTrains.code = some (fiveTrainsCode, []) := by decide +kernel
theorem qipDefault_input : QuboInputs.qipDefault.code = some (qip1Code, []) := by decide +kernel
theorem qipRerouted_input : QuboInputs.qipRerouted.code = some (qip2Code, []) := by decide +kernel
theorem manyTrains_input : QuboInputs.manyTrains.code = some (manyTrainsCode, []) := by decide +kernel
theorem onTheLine_input : QuboInputs.onTheLine.code = some (mpNoStationCode, []) := by decide +kernel
theorem circulation_input : QuboInputs.circulation.code = some (circulationCode, []) := by decide +kernel
theorem trackCirc_input : QuboInputs.trackCirc.code = some (trackCirc2Code, []) := by decide +kernel
theorem track_input : QuboInputs.track.code = some (trackSimplestCode, []) := by decide +kernel
theorem oneWay_input : QuboInputs.oneWay.code = some (oneWayCode, []) := by decide +kernel
theorem oppositeWays_input : QuboInputs.oppositeWays.code = some (deadlockCode, []) := by decide +kernel

theorem track_lower : trackSimplestCode.lowerOK QuboInputs.track.objective trackSimplestLower = true := by
  decide +kernel
theorem track_point : trackSimplestCode.pointOK QuboInputs.track.objective trackSimplestPoint = true := by
  decide +kernel

/-- the optimum of a problem -/
def Case.HasOptimum (c : Case) : Prop := ∃ b, buildProblem c.ts c.tt c.dmax c.cat = .ok b ∧
  (∃ σ, Feasible b σ ∧ b.prob.objective.eval σ = c.objective) ∧
  ∀ σ, Feasible b σ → c.objective ≤ b.prob.objective.eval σ

theorem hasOptimum {c : Case} {K : Coded} {gs : List (ℕ × ℚ)} (hc : c.code = some (K, gs)) {t : LpTree}
    (ht : K.lowerOK c.objective t = true) {x : List ℚ} (hx : K.pointOK c.objective x = true) :
    c.HasOptimum := by
  obtain ⟨b, hb, σ, hf, ho, -⟩ := point_spec hc hx
  exact ⟨b, hb, ⟨σ, hf, ho⟩, fun τ hτ => lower_spec hc ht hb hτ⟩

theorem quboFiles_optimum : ∀ f ∈ quboFiles, f.2.HasOptimum := by
  intro f hf
  simp only [quboFiles, List.mem_cons, List.not_mem_nil, or_false] at hf
  rcases hf with rfl | rfl | rfl | rfl | rfl | rfl | rfl | rfl | rfl | rfl
  · exact hasOptimum fiveTrains_input fiveTrains_lower fiveTrains_point
  · exact hasOptimum qipDefault_input qip1_lower qip1_point
  · exact hasOptimum qipRerouted_input qip2_lower qip2_point
  · exact hasOptimum manyTrains_input manyTrains_lower manyTrains_point
  · exact hasOptimum onTheLine_input mpNoStation_lower mpNoStation_point
  · exact hasOptimum circulation_input circulation_lower circulation_point
  · exact hasOptimum trackCirc_input trackCirc2_lower trackCirc2_point
  · exact hasOptimum track_input track_lower track_point
  · exact hasOptimum oneWay_input oneWay_lower oneWay_point
  · exact hasOptimum oppositeWays_input deadlock_lower deadlock_point

/-- what holds for an input: the problem is converted, the bit strings of least energy are the best
solutions, and the test passes exactly if some sample is a solution with an objective as asserted -/
structure QuboTest (file : String) (c : Case) (b : Built) (q : Qubo) : Prop where
  built : buildProblem c.ts c.tt c.dmax .integer = .ok b
  converted : convertToPyqubo b.prob = .ok q
  exact_ : QuboExact b q testPenalties c.objective
  asserted : AssertedValue file c.objective
  passes : ∀ ss, ∃ ss', interpret b.prob ss = .ok ss' ∧
    ((∃ r, solveOnQuantum ss' b.prob = .ok r ∧ QuboPasses file r) ↔
      ∃ a ∈ ss, ∃ σ, Decodes b.prob a.1 σ ∧ Feasible b σ ∧ AssertedValue file (b.prob.objective.eval σ))
  hundredth : ∀ σ, Feasible b σ → IsInt (100 * b.prob.objective.eval σ)

/-- the assertion holds for smaller values not below the optimum -/
theorem asserted_down {f : String × Case} (hf : f ∈ quboFiles) {x y : ℚ} (hy : AssertedValue f.1 y)
    (h1 : f.2.objective ≤ x) (h2 : x ≤ y) : AssertedValue f.1 x := by
  simp only [quboFiles, List.mem_cons, List.not_mem_nil, or_false] at hf
  unfold AssertedValue at hy ⊢
  rcases hf with rfl | rfl | rfl | rfl | rfl | rfl | rfl | rfl | rfl | rfl
  all_goals
    simp only [String.reduceEq, if_true, if_false] at hy h1 ⊢
  · exact h2.trans_lt hy
  · have h3 : (2/5 : ℚ) ≤ x := h1
    rw [abs_le] at hy ⊢
    constructor <;> linarith
  · have h3 : (1/5 : ℚ) ≤ x := h1
    rw [abs_le] at hy ⊢
    constructor <;> linarith

theorem asserted_optimum {f : String × Case} (hf : f ∈ quboFiles) : AssertedValue f.1 f.2.objective := by
  simp only [quboFiles, List.mem_cons, List.not_mem_nil, or_false] at hf
  unfold AssertedValue
  rcases hf with rfl | rfl | rfl | rfl | rfl | rfl | rfl | rfl | rfl | rfl
  all_goals
    simp only [String.reduceEq, if_true, if_false]
  · show (1/5 : ℚ) < 6/5
    norm_num
  · show |(2/5 : ℚ) - 2/5| ≤ 1/200
    norm_num
  · show |(1/5 : ℚ) - 1/5| ≤ 1/200
    norm_num

theorem testPenalties_above {v : ℚ} (h : v < 5/2) : PenaltiesAbove testPenalties v := by
  refine ⟨⟨1, rfl, one_pos⟩, fun k hk => ⟨5/2, ?_, by norm_num, ?_⟩⟩
  · simp only [penaltyClasses, List.mem_cons, List.not_mem_nil, or_false] at hk
    rcases hk with rfl | rfl | rfl | rfl | rfl | rfl <;> rfl
  · have : price testPenalties "objective" = 1 := rfl
    rw [this, one_mul]
    exact h

theorem quboTest {f : String × Case} (hf : f ∈ quboFiles) : ∃ b q, QuboTest f.1 f.2 b q := by
  obtain ⟨b, hb, ⟨τ, hτ, hval⟩, hmin⟩ := quboFiles_optimum f hf
  have hok := quboFiles_ok f hf
  unfold Case.quboOK at hok
  rw [hb] at hok
  simp only [Bool.and_eq_true, beq_iff_eq, decide_eq_true_eq, List.all_eq_true] at hok
  obtain ⟨⟨⟨⟨⟨⟨⟨hI, hi⟩, h0⟩, hlt⟩, -⟩, hcat⟩, hwt⟩, ⟨hconv, hnd⟩, hund⟩ := hok
  obtain ⟨q, hq⟩ : ∃ q, convertToPyqubo b.prob = .ok q := by
    split at hconv
    · exact ⟨_, by assumption⟩
    · cases hconv
  have hname := names_inj hnd
  have hl := built_goodLabels hb hname
  have hkeys := (List.nodup_append.1 hl.1).2.1
  have hE : QuboExact b q testPenalties f.2.objective :=
    qubo_exact hb (wholeTimes_spec hI) (isInt_of_den hi) h0 hname hwt hq hτ
      (testPenalties_above (by rw [hval]; exact hlt)) ⟨τ, hτ, hval⟩ hmin
  refine ⟨b, q, hcat ▸ hb, hq, hE, asserted_optimum hf, fun ss => ?_, fun σ hσ => hundredth hb hund hσ⟩
  obtain ⟨ss', hss⟩ := interpret_succeeds hq ss
  refine ⟨ss', hss, ?_, ?_⟩
  · rintro ⟨r, hr, hp⟩
    obtain ⟨a, ha, σ, hdec, hσ, ho⟩ := chosen_sound hb h0 hname hkeys hss hr hp.feasible
    exact ⟨a, ha, σ, hdec, hσ, ho ▸ hp.objective⟩
  · rintro ⟨a, ha, σ, hdec, hσ, ho⟩
    obtain ⟨r, hr, h1, h2, h3, h4⟩ := chosen_best hname hkeys ha hdec hσ hss
    refine ⟨r, hr, h1, h2, h3, asserted_down hf ho ?_ h4⟩
    obtain ⟨_, _, ρ, _, hρ, hρo⟩ := chosen_sound hb h0 hname hkeys hss hr h1
    rw [← hρo]
    exact hmin _ hρ

/-- **C82.** Every input of the test is converted to a QUBO, and with the penalties of the test the bit
strings of least energy are exactly those of the best solutions, with the values of C80 (1/10 for
`track_occupation_simplest`). If one of them is sampled, the test passes. -/
theorem C82_tests : ∀ f ∈ quboFiles, ∃ b q,
    buildProblem f.2.ts f.2.tt f.2.dmax .integer = .ok b ∧ convertToPyqubo b.prob = .ok q ∧
    QuboExact b q testPenalties f.2.objective ∧
    ∀ ss : List (Bits × ℚ), (∃ a ∈ ss, GroundState q testPenalties a.1) →
      ∃ ss' r, interpret b.prob ss = .ok ss' ∧ solveOnQuantum ss' b.prob = .ok r ∧ QuboPasses f.1 r := by
  intro f hf
  obtain ⟨b, q, T⟩ := quboTest hf
  refine ⟨b, q, T.built, T.converted, T.exact_, fun ss ⟨a, ha, hg⟩ => ?_⟩
  obtain ⟨ss', hss, hiff⟩ := T.passes ss
  obtain ⟨-, σ, hdec, hσ, hv⟩ := T.exact_.2.1 _ hg
  obtain ⟨r, hr, hp⟩ := hiff.2 ⟨a, ha, σ, hdec, hσ, by rw [hv]; exact T.asserted⟩
  exact ⟨ss', r, hss, hr, hp⟩

/-- **C82**, which sample sets pass: exactly those in which some sample is a solution with an objective
as asserted. -/
theorem C82_passes : ∀ f ∈ quboFiles, ∀ b, buildProblem f.2.ts f.2.tt f.2.dmax .integer = .ok b →
    ∀ ss : List (Bits × ℚ), ∃ ss', interpret b.prob ss = .ok ss' ∧
      ((∃ r, solveOnQuantum ss' b.prob = .ok r ∧ QuboPasses f.1 r) ↔
        ∃ a ∈ ss, ∃ σ, Decodes b.prob a.1 σ ∧ Feasible b σ ∧
          AssertedValue f.1 (b.prob.objective.eval σ)) := by
  intro f hf b hb
  obtain ⟨b', q, T⟩ := quboTest hf
  cases hb.symm.trans T.built
  exact T.passes

/-- **C82**, the two tests that assert a value: they pass only if a best solution is sampled. -/
theorem C82_optimal : ∀ f ∈ quboFiles,
    f.1 = "two_trains_going_one_way_simplest" ∨ f.1 = "rolling_stock_circulation" →
    ∀ b, buildProblem f.2.ts f.2.tt f.2.dmax .integer = .ok b → ∀ σ, Feasible b σ →
      (AssertedValue f.1 (b.prob.objective.eval σ) ↔ b.IsOptimal σ) := by
  intro f hf hn b hb σ hσ
  obtain ⟨b', q, T⟩ := quboTest hf
  cases hb.symm.trans T.built
  obtain ⟨τ, hτ, hv⟩ : ∃ τ, Feasible b τ ∧ b.prob.objective.eval τ = f.2.objective := by
    obtain ⟨x, hx⟩ := T.exact_.1
    obtain ⟨-, τ, -, h⟩ := T.exact_.2.1 x hx
    exact ⟨τ, h⟩
  have hmin := fun τ hτ => (T.exact_.2.2 τ hτ).1
  obtain ⟨n, hn'⟩ := T.hundredth σ hσ
  have key : AssertedValue f.1 (b.prob.objective.eval σ) ↔ b.prob.objective.eval σ = f.2.objective := by
    refine ⟨fun h => ?_, fun h => by rw [h]; exact T.asserted⟩
    have hge := hmin σ hσ
    clear hmin hv hb
    simp only [quboFiles, List.mem_cons, List.not_mem_nil, or_false] at hf
    unfold AssertedValue at h
    rcases hf with rfl | rfl | rfl | rfl | rfl | rfl | rfl | rfl | rfl | rfl
    all_goals
      simp only [String.reduceEq, if_true, if_false, or_self] at h hn
    · show b.prob.objective.eval σ = 2/5
      rw [abs_le] at h
      have h1 : (39 : ℤ) < n := by exact_mod_cast (by linarith : (39 : ℚ) < n)
      have h2 : n < (41 : ℤ) := by exact_mod_cast (by linarith : (n : ℚ) < 41)
      have : n = 40 := by omega
      subst this
      push_cast at hn'
      linarith
    · show b.prob.objective.eval σ = 1/5
      rw [abs_le] at h
      have h1 : (19 : ℤ) < n := by exact_mod_cast (by linarith : (19 : ℚ) < n)
      have h2 : n < (21 : ℤ) := by exact_mod_cast (by linarith : (n : ℚ) < 21)
      have : n = 20 := by omega
      subst this
      push_cast at hn'
      linarith
  rw [key]
  constructor
  · intro h
    exact ⟨hσ, fun τ hτ => by rw [h]; exact hmin τ hτ⟩
  · intro h
    exact le_antisymm (hv ▸ h.2 τ hτ) (hmin σ hσ)

/-- a sample for which the test fails: no delay at all, for the two trains that follow each other -/
example : (match buildProblem QuboInputs.oneWay.ts QuboInputs.oneWay.tt QuboInputs.oneWay.dmax .integer with
    | .error _ => false
    | .ok b => match interpret b.prob [(fun _ => false, 0)] with
      | .error _ => false
      | .ok ss => match solveOnQuantum ss b.prob with
        | .error _ => false
        | .ok r => !r.feasible) = true := by decide +kernel

end Verif
