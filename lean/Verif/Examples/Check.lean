import Verif.Proofs.Assemble
import Verif.Examples.Small

/-!
# Checking that concrete assignments are feasible
-/

namespace Verif

/-- executable version of `Constraint.Holds` -/
def Constraint.check (σ : LpVar → ℚ) (c : Constraint) : Bool :=
  match c.sense with
  | .le => decide (c.expr.eval σ ≤ 0)
  | .ge => decide (0 ≤ c.expr.eval σ)
  | .eq => decide (c.expr.eval σ = 0)

theorem Constraint.check_iff {σ : LpVar → ℚ} {c : Constraint} : c.check σ = true ↔ c.Holds σ := by
  unfold check Holds; cases c.sense <;> simp

/-- build the problem and check all constraints -/
def checkAll (ts : TrainSets) (tt : Timetable) (dmax : ℚ) (cat : Cat) (σ : LpVar → ℚ) : Bool :=
  match buildProblem ts tt dmax cat with
  | .ok b => b.prob.constraints.all fun c => c.2.check σ
  | .error _ => false

theorem feasible_of_check {ts : TrainSets} {tt : Timetable} {dmax : ℚ} {cat : Cat} {σ : LpVar → ℚ}
    (h : checkAll ts tt dmax cat σ = true)
    (hd : ∀ v j s, v.vid = .delay j s → 0 ≤ σ v ∧ σ v ≤ dmax ∧ ∃ n : ℤ, σ v = n)
    (ho : ∀ v a b c d, v.vid = .order a b c d → σ v = 0 ∨ σ v = 1) :
    ∃ b, buildProblem ts tt dmax cat = .ok b ∧ Feasible b σ := by
  unfold checkAll at h
  split at h
  · rename_i b hb
    refine ⟨b, hb, ⟨⟨?_, ?_⟩, ?_⟩⟩
    · intro j s v hv
      rw [delayAt_ok, delayVariables_find (parts hb).hdv] at hv
      obtain ⟨_, rfl⟩ := hv
      obtain ⟨h1, h2, h3⟩ := hd (dVar j s dmax cat) j s rfl
      exact ⟨h1, h2, fun _ => h3⟩
    · intro a b' c d v hv
      obtain ⟨h1, h2, h3, h4⟩ := orderVariables_isOrderVar (parts hb).hy hv
      unfold InDomain
      rw [h2, h3]
      rcases ho v a b' c d h1 with h | h <;> rw [h]
      · exact ⟨le_refl _, by norm_num, fun _ => ⟨0, by simp⟩⟩
      · exact ⟨by norm_num, le_refl _, fun _ => ⟨1, by simp⟩⟩
    · intro c hc
      rw [List.all_eq_true] at h
      exact Constraint.check_iff.1 (h c hc)
  · cases h

/-- executable version of `Departs` -/
def checkDeparts (ts : TrainSets) (tt : Timetable) (dmax : ℚ) (cat : Cat) (σ : LpVar → ℚ)
    (j s : Val) (t : ℚ) : Bool :=
  match delayVariables ts dmax cat with
  | .ok dv =>
    match delayAt dv j s, earliestDepTime ts.paths tt j s with
    | .ok v, .ok e => decide (t = e + σ v)
    | _, _ => false
  | .error _ => false

theorem departs_of_check {ts : TrainSets} {tt : Timetable} {dmax : ℚ} {cat : Cat} {σ : LpVar → ℚ}
    {b : Built} (hb : buildProblem ts tt dmax cat = .ok b) {j s : Val} {t : ℚ}
    (h : checkDeparts ts tt dmax cat σ j s t = true) : Departs ts tt b.dv σ j s t := by
  unfold checkDeparts at h
  rw [(parts hb).hdv] at h
  simp only at h
  split at h
  · rename_i v e hv he
    exact ⟨e, v, he, hv, of_decide_eq_true h⟩
  · cases h

namespace Small

/-- the example solution is feasible -/
theorem feasible : ∃ b, buildProblem ts tt 10 .integer = .ok b ∧ Feasible b σ := by
  refine feasible_of_check (by decide +kernel) ?_ ?_
  · intro v j s hv
    unfold σ
    rw [hv]
    simp only
    split
    · exact ⟨by norm_num, by norm_num, 4, by norm_num⟩
    · split
      · exact ⟨by norm_num, by norm_num, 8, by norm_num⟩
      · exact ⟨by norm_num, by norm_num, 0, by norm_num⟩
  · intro v a b c d hv
    unfold σ
    rw [hv]
    simp only
    split
    · exact .inl rfl
    · exact .inr rfl

end Small

end Verif
