import Verif.Proofs.Objective
import Verif.Examples.Check
import Mathlib.Algebra.Order.BigOperators.Group.List
import Mathlib.Tactic.FieldSimp

/-!
# Properties of the objective: C17
-/

namespace Verif

variable {ts : TrainSets} {tt : Timetable} {dmax : ℚ} {cat : Cat} {b : Built} {σ : LpVar → ℚ}

theorem sum_eq_zero_each {α : Type} {l : List α} {f : α → ℚ} (h : ∀ x ∈ l, 0 ≤ f x)
    (hs : (l.map f).sum = 0) : ∀ x ∈ l, f x = 0 := by
  induction l with
  | nil => simp
  | cons a l ih =>
    rw [List.forall_mem_cons] at h ⊢
    have h2 : 0 ≤ (l.map f).sum := by
      apply List.sum_nonneg
      intro x hx
      obtain ⟨c, hc, rfl⟩ := List.mem_map.1 hx
      exact h.2 c hc
    rw [List.map_cons, List.sum_cons] at hs
    have h1 := h.1
    exact ⟨by linarith, ih h.2 (by linarith)⟩

/-- sum of all weights -/
def TotalWeight (ts : TrainSets) (tt : Timetable) : ℚ :=
  ((Calls ts).map fun c => Weight tt c.1 c.2).sum

/-- **C17.** The objective is the weighted sum of the delays over `d_max`; every weighted call has
a delay variable; for non-negative weights and delays in their domains the objective is between 0
and the sum of the weights, and 0 exactly when all delays with a positive weight are 0. -/
theorem C17_objective (hb : buildProblem ts tt dmax cat = .ok b) {d : Val → Val → ℚ}
    (hd : Delays b.dv σ d) :
    b.prob.objective.eval σ = TotalDelay ts tt d / dmax ∧
    (∀ c ∈ Calls ts, Weight tt c.1 c.2 ≠ 0 → dmax ≠ 0 ∧ HasDelay ts c.1 c.2) ∧
    (0 ≤ dmax → Admissible b σ → (∀ c ∈ Calls ts, 0 ≤ Weight tt c.1 c.2) →
      0 ≤ b.prob.objective.eval σ ∧ b.prob.objective.eval σ ≤ TotalWeight ts tt ∧
      (b.prob.objective.eval σ = 0 ↔ ∀ c ∈ Calls ts, 0 < Weight tt c.1 c.2 → d c.1 c.2 = 0)) := by
  have P := parts hb
  have hobj := P.hobj
  unfold objective at hobj
  obtain ⟨l, hl, hobj⟩ := bind_ok hobj
  cases hobj' : b.prob.objective with
  | mk terms const =>
  rw [hobj'] at hobj
  have hev : (LinExpr.mk terms const).eval σ = TotalDelay ts tt d / dmax := by
    rw [← Except.ok.inj hobj, eval_foldl_add, objectiveTerms_sum hl hd]
    simp [LinExpr.eval]
  have hex : ∀ c ∈ Calls ts, Weight tt c.1 c.2 ≠ 0 → dmax ≠ 0 ∧ HasDelay ts c.1 c.2 := by
    intro c hc hw
    obtain ⟨v, hv, h0, _⟩ := objectiveTerms_ok hl hc hw
    rw [delayAt_ok, delayVariables_find P.hdv] at hv
    exact ⟨h0, hv.1⟩
  refine ⟨hev, hex, fun h0 ha hw => ?_⟩
  rw [hev]
  have hdb : ∀ c ∈ Calls ts, 0 ≤ d c.1 c.2 ∧ d c.1 c.2 ≤ dmax := by
    intro c _
    by_cases hv : ∃ v, delayAt b.dv c.1 c.2 = .ok v
    · obtain ⟨v, hv⟩ := hv
      rw [(hd c.1 c.2).1 v hv]
      exact delay_bounds P.hdv ha.delays hv
    · rw [(hd c.1 c.2).2 (fun v h => hv ⟨v, h⟩)]
      exact ⟨le_refl _, h0⟩
  have hnn : 0 ≤ TotalDelay ts tt d := by
    unfold TotalDelay
    apply List.sum_nonneg
    intro x hx
    obtain ⟨c, hc, rfl⟩ := List.mem_map.1 hx
    exact mul_nonneg (hw c hc) (hdb c hc).1
  have hle : TotalDelay ts tt d ≤ TotalWeight ts tt * dmax := by
    unfold TotalDelay TotalWeight
    rw [← List.sum_map_mul_right]
    apply List.sum_le_sum
    intro c hc
    exact mul_le_mul_of_nonneg_left (hdb c hc).2 (hw c hc)
  have hzero : TotalDelay ts tt d = 0 ↔ ∀ c ∈ Calls ts, 0 < Weight tt c.1 c.2 → d c.1 c.2 = 0 := by
    unfold TotalDelay
    constructor
    · intro h c hc hpos
      have h1 := sum_eq_zero_each (f := fun c : Val × Val => Weight tt c.1 c.2 * d c.1 c.2)
        (fun c hc => mul_nonneg (hw c hc) (hdb c hc).1) h c hc
      rcases mul_eq_zero.1 h1 with h3 | h3
      · exact absurd h3 hpos.ne'
      · exact h3
    · intro h
      apply List.sum_eq_zero
      intro x hx
      obtain ⟨c, hc, rfl⟩ := List.mem_map.1 hx
      rcases (hw c hc).eq_or_lt with h1 | h1
      · rw [← h1, zero_mul]
      · rw [h c hc h1, mul_zero]
  rcases h0.eq_or_lt with h0' | h0'
  · -- no weighted call at all
    have hall : ∀ c ∈ Calls ts, Weight tt c.1 c.2 = 0 := by
      intro c hc
      by_contra hne
      exact (hex c hc hne).1 h0'.symm
    have htw : TotalWeight ts tt = 0 := by
      unfold TotalWeight
      apply List.sum_eq_zero
      intro x hx
      obtain ⟨c, hc, rfl⟩ := List.mem_map.1 hx
      exact hall c hc
    refine ⟨by rw [← h0', div_zero], by rw [← h0', div_zero, htw], ?_⟩
    rw [← h0', div_zero]
    simp only [true_iff]
    intro c hc hpos
    exact absurd (hall c hc) hpos.ne'
  · refine ⟨div_nonneg hnn h0, (div_le_iff₀ h0').2 hle, ?_⟩
    rw [div_eq_zero_iff, ← hzero]
    constructor
    · rintro (h | h)
      · exact h
      · exact absurd h h0'.ne'
    · exact .inl

/-- the hypotheses of C17 are met; train 2 is four minutes late at `B` (weight 1), train 4 eight
minutes at `A` (weight 1): the objective is 12/10 -/
example : ∃ b d, buildProblem Small.ts Small.tt 10 .integer = .ok b ∧ Delays b.dv Small.σ d ∧
    Admissible b Small.σ ∧ (∀ c ∈ Calls Small.ts, 0 ≤ Weight Small.tt c.1 c.2) ∧
    b.prob.objective.eval Small.σ = 12 / 10 := by
  obtain ⟨b, hb, hf⟩ := Small.feasible
  obtain ⟨d, hd⟩ := delays_exist b.dv Small.σ
  refine ⟨b, d, hb, hd, hf.adm, by decide +kernel, ?_⟩
  have : (match buildProblem Small.ts Small.tt 10 .integer with
    | .ok b => decide (b.prob.objective.eval Small.σ = 12 / 10)
    | .error _ => false) = true := by decide +kernel
  rw [hb] at this
  exact of_decide_eq_true this

end Verif
