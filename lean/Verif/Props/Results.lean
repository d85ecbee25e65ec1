import Verif.Model.Results
import Verif.Props.Order

/-!
# Analysis of samples: C25, C26, C27
-/

namespace Verif

/-- the assignment of variables described by a sample -/
def Reads (p : Problem) (sample : Sample) (σ : LpVar → ℚ) : Prop :=
  ∀ v ∈ p.vars, Dict.get? sample v.name = some (σ v)

theorem sampleSum_eq {sample : Sample} {σ : LpVar → ℚ} {l : List (LpVar × ℚ)}
    (h : ∀ t ∈ l, Dict.get? sample t.1.name = some (σ t.1)) :
    sampleSum sample l = .ok (l.map fun t => t.2 * σ t.1).sum := by
  induction l with
  | nil => rfl
  | cons t l ih =>
    simp only [sampleSum, Dict.at!_ok.2 (h t List.mem_cons_self),
      ih fun t' ht => h t' (List.mem_cons_of_mem _ ht), bind, Except.bind, List.map_cons,
      List.sum_cons]

theorem term_vars {p : Problem} {nc : String × Constraint} (h : nc ∈ p.constraints)
    {t : LpVar × ℚ} (ht : t ∈ nc.2.expr.terms) : t.1 ∈ p.vars := by
  unfold Problem.vars
  simp only [List.mem_dedup, List.mem_append, List.mem_flatMap, List.mem_map]
  exact .inr ⟨nc, h, t, ht, rfl⟩

theorem obj_vars {p : Problem} {t : LpVar × ℚ} (ht : t ∈ p.objective.terms) : t.1 ∈ p.vars := by
  unfold Problem.vars
  simp only [List.mem_dedup, List.mem_append, List.mem_map]
  exact .inl ⟨t, ht, rfl⟩

theorem checkConstraint_eq {p : Problem} {sample : Sample} {σ : LpVar → ℚ} (h : Reads p sample σ)
    {nc : String × Constraint} (hnc : nc ∈ p.constraints) :
    ∃ r, checkConstraint sample nc.2 = .ok r ∧ (r = true ↔ nc.2.Holds σ) := by
  unfold checkConstraint
  rw [sampleSum_eq fun t ht => h _ (term_vars hnc ht)]
  simp only [bind, Except.bind, Constraint.Holds, LinExpr.eval]
  cases nc.2.sense
  · exact ⟨_, rfl, by rw [decide_eq_true_iff]; constructor <;> intro h <;> linarith⟩
  · exact ⟨_, rfl, by rw [decide_eq_true_iff]; constructor <;> intro h <;> linarith⟩
  · exact ⟨_, rfl, by rw [decide_eq_true_iff]; constructor <;> intro h <;> linarith⟩

theorem analyze_loop {sample : Sample} {σ : LpVar → ℚ} (l : List (String × Constraint))
    (d : Dict String Bool) (hnd : (Dict.keys d ++ Dict.keys l).Nodup)
    (h : ∀ nc ∈ l, ∃ r, checkConstraint sample nc.2 = .ok r ∧ (r = true ↔ nc.2.Holds σ)) :
    ∃ e : Dict String Bool, loop l (fun (d : Dict String Bool) nc => do
      let h ← checkConstraint sample nc.2
      .ok (Dict.set d nc.1 h)) d = .ok (d ++ e) ∧
      List.Forall₂ (fun nc r => r.1 = nc.1 ∧ (r.2 = true ↔ nc.2.Holds σ)) l e := by
  induction l generalizing d with
  | nil => exact ⟨[], by simp [loop], .nil⟩
  | cons nc l ih =>
    obtain ⟨r, hr, hiff⟩ := h nc List.mem_cons_self
    have hset : Dict.set d nc.1 r = d ++ [(nc.1, r)] := by
      have : nc.1 ∉ Dict.keys d := by
        simp only [Dict.keys, List.map_cons] at hnd ⊢
        intro hm
        exact (List.nodup_append.1 hnd).2.2 _ hm _ List.mem_cons_self rfl
      clear hnd ih
      induction d with
      | nil => rfl
      | cons a d ihd =>
        simp only [Dict.keys, List.map_cons, List.mem_cons, not_or] at this
        simp only [Dict.set, if_neg (Ne.symm this.1), List.cons_append]
        rw [ihd (by simpa [Dict.keys] using this.2)]
    obtain ⟨e, he, hall⟩ := ih (d ++ [(nc.1, r)]) (by
      simpa [Dict.keys] using hnd) fun x hx => h x (List.mem_cons_of_mem _ hx)
    refine ⟨(nc.1, r) :: e, ?_, .cons ⟨rfl, hiff⟩ hall⟩
    simp only [loop, hr, bind, Except.bind, hset]
    rw [← List.append_cons] at *
    simpa [bind, Except.bind] using he

theorem analyze_spec {p : Problem} {sample : Sample} {σ : LpVar → ℚ} (h : Reads p sample σ)
    (hnd : (Dict.keys p.constraints).Nodup) :
    ∃ r n, analyzeConstraints p sample = .ok (r, n) ∧
      List.Forall₂ (fun nc x => x.1 = nc.1 ∧ (x.2 = true ↔ nc.2.Holds σ)) p.constraints r ∧
      n = (r.map fun x => if x.2 then 1 else 0).sum := by
  obtain ⟨e, he, hall⟩ := analyze_loop (sample := sample) p.constraints [] (by simpa [Dict.keys] using hnd)
    fun nc hnc => checkConstraint_eq h hnc
  refine ⟨e, _, ?_, hall, rfl⟩
  unfold analyzeConstraints
  rw [he]; rfl

/-! ## C27 -/

/-- the number of violated constraints -/
noncomputable def Violated (p : Problem) (σ : LpVar → ℚ) : ℕ := by
  classical exact (p.constraints.filter fun nc => decide ¬ nc.2.Holds σ).length

/-- **C27.** For a problem with distinct constraint names and a sample that gives every variable a
value, the analysis lists for each constraint whether it holds, and the number of constraints minus
the reported number is the number of violated constraints, which is 0 iff the sample satisfies the
problem. -/
theorem C27_broken {p : Problem} {sample : Sample} {σ : LpVar → ℚ} (h : Reads p sample σ)
    (hnd : (Dict.keys p.constraints).Nodup) :
    ∃ r n, analyzeConstraints p sample = .ok (r, n) ∧
      (∀ nc ∈ p.constraints, ∃ x, Dict.get? r nc.1 = some x ∧ (x = true ↔ nc.2.Holds σ)) ∧
      n ≤ p.numConstraints ∧ p.numConstraints - n = Violated p σ ∧
      (p.numConstraints - n = 0 ↔ Satisfies p σ) := by
  classical
  obtain ⟨r, n, ha, hall, hn⟩ := analyze_spec h hnd
  have hcount : ∀ (l : List (String × Constraint)) (r : Dict String Bool),
      List.Forall₂ (fun nc x => x.1 = nc.1 ∧ (x.2 = true ↔ nc.2.Holds σ)) l r →
      (r.map fun x => if x.2 then 1 else 0).sum +
        (l.filter fun nc => decide ¬ nc.2.Holds σ).length = l.length := by
    intro l r hall
    induction hall with
    | nil => rfl
    | @cons nc x l r hx _ ih =>
      simp only [List.map_cons, List.sum_cons, List.length_cons]
      by_cases hh : nc.2.Holds σ
      · have : x.2 = true := hx.2.2 hh
        simp only [this, if_true, List.filter_cons, hh, not_true, decide_false]
        simp only [Bool.false_eq_true, if_false]
        omega
      · have : ¬ x.2 = true := fun h' => hh (hx.2.1 h')
        simp only [this, List.filter_cons, hh, not_false_eq_true, decide_true, if_true,
          List.length_cons]
        simp only [Bool.false_eq_true, if_false]
        omega
  have hc := hcount _ _ hall
  rw [← hn] at hc
  have hv : p.numConstraints - n = Violated p σ := by
    unfold Problem.numConstraints Violated
    omega
  refine ⟨r, n, ha, ?_, by unfold Problem.numConstraints; omega, hv, ?_⟩
  · have key : ∀ (l : List (String × Constraint)) (r : Dict String Bool),
        List.Forall₂ (fun nc x => x.1 = nc.1 ∧ (x.2 = true ↔ nc.2.Holds σ)) l r →
        (Dict.keys l).Nodup →
        ∀ nc ∈ l, ∃ x, Dict.get? r nc.1 = some x ∧ (x = true ↔ nc.2.Holds σ) := by
      intro l r hall
      induction hall with
      | nil => simp
      | @cons nc x l r hx _ ih =>
        intro hnd nc' hnc
        simp only [Dict.keys, List.map_cons, List.nodup_cons] at hnd
        rcases List.mem_cons.1 hnc with rfl | hnc
        · exact ⟨x.2, by simp [Dict.get?, hx.1], hx.2⟩
        · have hne : x.1 ≠ nc'.1 := by
            rw [hx.1]; intro he
            exact hnd.1 (he ▸ List.mem_map_of_mem (f := Prod.fst) hnc)
          simp only [Dict.get?, if_neg hne]
          exact ih hnd.2 nc' hnc
    exact key _ _ hall hnd
  · rw [hv]
    unfold Violated Satisfies
    rw [List.length_eq_zero_iff, List.filter_eq_nil_iff]
    simp

/-! ## C25 -/

/-- a record describes a sample correctly -/
def Describes (p : Problem) (data : Sample × ℚ) (σ : LpVar → ℚ) (r : Record) : Prop :=
  r.sample = data.1 ∧ r.energy = data.2 ∧ r.objective = p.objective.eval σ ∧
    (r.feasible = true ↔ Satisfies p σ) ∧ analyzeConstraints p data.1 = .ok r.feasConstraints

theorem analyzeSample_spec {p : Problem} {data : Sample × ℚ} {σ : LpVar → ℚ}
    (h : Reads p data.1 σ) (hnd : (Dict.keys p.constraints).Nodup) :
    ∃ r, analyzeSample p data = .ok r ∧ Describes p data σ r := by
  obtain ⟨r, n, ha, hall, hn⟩ := analyze_spec h hnd
  unfold analyzeSample getObjective
  rw [sampleSum_eq fun t ht => h _ (obj_vars ht), ha]
  refine ⟨_, rfl, rfl, rfl, ?_, ?_, ha⟩
  · simp only [LinExpr.eval]; ring
  · simp only [List.all_eq_true, Satisfies]
    clear ha hn hnd
    revert hall
    generalize p.constraints = l
    intro hall
    induction hall with
    | nil => simp
    | cons hx _ ih => simp only [List.forall_mem_cons, ih, hx.2]

/-- **C25.** If every sample gives a value to every variable, `get_results` returns one record for
each sample (a permutation of the correct descriptions), sorted by objective. -/
theorem C25_results {p : Problem} {ss : List (Sample × ℚ)} {val : Sample → LpVar → ℚ}
    (h : ∀ d ∈ ss, Reads p d.1 (val d.1)) (hnd : (Dict.keys p.constraints).Nodup) :
    ∃ rs rs', getResults ss p = .ok rs ∧ rs.Perm rs' ∧
      List.Forall₂ (fun d r => Describes p d (val d.1) r) ss rs' ∧
      rs.Pairwise fun a b => a.objective ≤ b.objective := by
  have key : ∃ rs', mapPy (analyzeSample p) ss = .ok rs' ∧
      List.Forall₂ (fun d r => Describes p d (val d.1) r) ss rs' := by
    induction ss with
    | nil => exact ⟨[], rfl, .nil⟩
    | cons d ss ih =>
      obtain ⟨rs', h1, h2⟩ := ih fun d' hd => h d' (List.mem_cons_of_mem _ hd)
      obtain ⟨r, h3, h4⟩ := analyzeSample_spec (h d List.mem_cons_self) hnd
      exact ⟨r :: rs', by simp only [mapPy, h3, h1], .cons h4 h2⟩
  obtain ⟨rs', h1, h2⟩ := key
  refine ⟨_, rs', ?_,
    List.perm_insertionSort (fun a b : Record => a.objective ≤ b.objective) _, h2, ?_⟩
  · unfold getResults
    rw [h1]; rfl
  · have : Std.Total fun a b : Record => a.objective ≤ b.objective := ⟨fun a b => le_total _ _⟩
    have : IsTrans Record fun a b => a.objective ≤ b.objective := ⟨fun a b c => le_trans⟩
    exact List.pairwise_insertionSort _ _

/-! ## C26 -/

/-- **C26.** If some sample is feasible then the chosen one is feasible and has the least objective
of all feasible samples; otherwise the chosen one is a sample of least energy; an empty sample set
raises `IndexError`. -/
theorem C26_best {p : Problem} {ss : List (Sample × ℚ)} {val : Sample → LpVar → ℚ}
    (h : ∀ d ∈ ss, Reads p d.1 (val d.1)) (hnd : (Dict.keys p.constraints).Nodup) :
    (ss = [] → solveOnQuantum ss p = .error .indexError) ∧
    (ss ≠ [] → ∃ r d, solveOnQuantum ss p = .ok r ∧ d ∈ ss ∧ Describes p d (val d.1) r ∧
      ((∃ d' ∈ ss, Satisfies p (val d'.1)) → Satisfies p (val d.1) ∧
        ∀ d' ∈ ss, Satisfies p (val d'.1) →
          p.objective.eval (val d.1) ≤ p.objective.eval (val d'.1)) ∧
      ((¬ ∃ d' ∈ ss, Satisfies p (val d'.1)) → ∀ d' ∈ ss, d.2 ≤ d'.2)) := by
  obtain ⟨rs, rs', hr, hperm, hall, hsort⟩ := C25_results h hnd
  have hto : ∀ r ∈ rs, ∃ d ∈ ss, Describes p d (val d.1) r := by
    intro r hr'
    have hr' := hperm.mem_iff.1 hr'
    clear hr hperm h hsort
    induction hall with
    | nil => cases hr'
    | cons hx _ ih =>
      rcases List.mem_cons.1 hr' with rfl | hr'
      · exact ⟨_, List.mem_cons_self, hx⟩
      · obtain ⟨d, hd, h'⟩ := ih hr'
        exact ⟨d, List.mem_cons_of_mem _ hd, h'⟩
  have hfrom : ∀ d ∈ ss, ∃ r ∈ rs, Describes p d (val d.1) r := by
    have : ∀ d ∈ ss, ∃ r ∈ rs', Describes p d (val d.1) r := by
      clear hr hperm h hsort hto
      induction hall with
      | nil => simp
      | cons hx _ ih =>
        intro d hd
        rcases List.mem_cons.1 hd with rfl | hd
        · exact ⟨_, List.mem_cons_self, hx⟩
        · obtain ⟨r, hr, h'⟩ := ih d hd
          exact ⟨r, List.mem_cons_of_mem _ hr, h'⟩
    intro d hd
    obtain ⟨r, hr, h'⟩ := this d hd
    exact ⟨r, hperm.mem_iff.2 hr, h'⟩
  constructor
  · rintro rfl
    rfl
  · intro hne
    unfold solveOnQuantum
    rw [hr]
    simp only [bind, Except.bind]
    unfold getBestFeasibleSample
    cases hf : rs.find? (·.feasible) with
    | some r =>
      have hm := List.mem_of_find?_eq_some hf
      have hfe : r.feasible = true := by simpa using List.find?_some hf
      obtain ⟨d, hd, hdes⟩ := hto r hm
      have hsat := hdes.2.2.2.1.1 hfe
      refine ⟨r, d, rfl, hd, hdes, fun _ => ⟨hsat, ?_⟩, fun hno => absurd ⟨d, hd, hsat⟩ hno⟩
      intro d' hd' hs'
      obtain ⟨r', hr', hdes'⟩ := hfrom d' hd'
      rw [← hdes.2.2.1, ← hdes'.2.2.1]
      have hf' := hdes'.2.2.2.1.2 hs'
      obtain ⟨_, as, bs, rfl, hbefore⟩ := List.find?_eq_some_iff_append.1 hf
      rcases List.mem_append.1 hr' with h' | h'
      · have := hbefore r' h'
        simp [hf'] at this
      · rcases List.mem_cons.1 h' with rfl | h'
        · exact le_refl _
        · exact (List.pairwise_cons.1 (List.pairwise_append.1 hsort).2.1).1 r' h'
    | none =>
      rw [List.find?_eq_none] at hf
      have hno : ¬ ∃ d' ∈ ss, Satisfies p (val d'.1) := by
        rintro ⟨d', hd', hs'⟩
        obtain ⟨r', hr', hdes'⟩ := hfrom d' hd'
        exact hf r' hr' (hdes'.2.2.2.1.2 hs')
      have : Std.Total fun a b : Record => a.energy ≤ b.energy := ⟨fun a b => le_total _ _⟩
      have : IsTrans Record fun a b => a.energy ≤ b.energy := ⟨fun a b c => le_trans⟩
      have hso := List.pairwise_insertionSort (fun a b : Record => a.energy ≤ b.energy) rs
      have hpe := List.perm_insertionSort (fun a b : Record => a.energy ≤ b.energy) rs
      cases hl : rs.insertionSort (fun a b => a.energy ≤ b.energy) with
      | nil =>
        exfalso
        rw [hl] at hpe
        have : rs = [] := hpe.symm.eq_nil
        obtain ⟨d, hd⟩ := List.exists_mem_of_ne_nil _ hne
        obtain ⟨r, hr', _⟩ := hfrom d hd
        simp [this] at hr'
      | cons r l =>
        rw [hl] at hso hpe
        obtain ⟨d, hd, hdes⟩ := hto r (hpe.mem_iff.1 List.mem_cons_self)
        refine ⟨r, d, rfl, hd, hdes, fun hex => absurd hex hno, fun _ d' hd' => ?_⟩
        obtain ⟨r', hr', hdes'⟩ := hfrom d' hd'
        rw [← hdes.2.1, ← hdes'.2.1]
        rcases List.mem_cons.1 (hpe.mem_iff.2 hr') with rfl | h'
        · exact le_refl _
        · exact (List.pairwise_cons.1 hso).1 r' h'

/-! ## Example -/

/-- reading a sample as an assignment (0 for missing names) -/
def readSample (s : Sample) (v : LpVar) : ℚ := (Dict.get? s v.name).getD 0

theorem reads_readSample {p : Problem} {s : Sample}
    (h : ∀ v ∈ p.vars, Dict.has s v.name = true) : Reads p s (readSample s) := by
  intro v hv
  obtain ⟨x, hx⟩ := Option.isSome_iff_exists.1 (h v hv)
  simp [readSample, hx]

/-- a two-variable problem `x + y ≥ 2`, minimise `y`, and three samples: the first violates the
constraint, the third is best -/
def exampleX : LpVar := ⟨.delay (.int 1) (.int 1), "x", 0, 2, .integer⟩
def exampleY : LpVar := ⟨.delay (.int 1) (.int 2), "y", 0, 2, .integer⟩
def exampleXY : Problem :=
  ⟨[("c", .mkGE ((LinExpr.var exampleX).add (.var exampleY)) (.num 2))], .var exampleY⟩
def exampleSamples : List (Sample × ℚ) :=
  [([("x", 1), ("y", 0)], 1), ([("x", 0), ("y", 2)], 2), ([("x", 1), ("y", 1)], 3)]

example : (∀ d ∈ exampleSamples, Reads exampleXY d.1 (readSample d.1)) ∧
    (Dict.keys exampleXY.constraints).Nodup ∧
    (match solveOnQuantum exampleSamples exampleXY with
      | .ok r => decide (r.sample = [("x", 1), ("y", 1)])
      | .error _ => false) = true ∧
    (match solveOnQuantum (exampleSamples.take 1) exampleXY with
      | .ok r => decide (r.sample = [("x", 1), ("y", 0)]) && !r.feasible
      | .error _ => false) = true := by
  refine ⟨fun d hd => reads_readSample ?_, by decide, by decide +kernel, by decide +kernel⟩
  revert d
  decide +kernel

end Verif
