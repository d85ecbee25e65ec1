import Verif.Props.LooseQubo
import Verif.Real.LooseReal4
import Verif.Real.LooseReal5
import Verif.Real.LooseReal5One
import Verif.Real.LooseReal6
import Verif.Real.LooseReal6One

/-!
# C81: the penalties of `solve_real_problem.py`

For the cases in which the default penalty is smaller than the best value of the objective: proofs by cases
(`Verif/Real/LooseReal*.lean`) bound what is saved when constraints are violated.
-/

namespace Verif

namespace Real

theorem real4_loose : LooseBounds ⟨netGt, gt, "16:00"⟩ real4Delays 40 154 0 :=
  ⟨fun _ _ _ _ h1 hi hb _ hσ he h2 => WithPlan.loose (withPlan (by simp [shipped]) read_gt netGt_ok gt_sheet
      (tableOK rfl) netGt_loop real4Plan_sections real4Plan_ok) (by norm_num) real4One_arcs real4One_choices
      real4One_times real4One_cases h1 hi hb hσ he (.inr h2),
    fun _ _ _ _ h1 hi hb _ hσ he => WithPlan.loose (withPlan (by simp [shipped]) read_gt netGt_ok gt_sheet
      (tableOK rfl) netGt_loop real4Plan_sections real4Plan_ok) (by norm_num) (tree := .leaf [])
      real4One_arcs real4One_choices real4One_times rfl h1 hi hb hσ he (.inl rfl)⟩

theorem real5_loose : LooseBounds ⟨netGt, gt, "16:00"⟩ real5Delays 40 259 60 :=
  ⟨fun _ _ _ _ h1 hi hb _ hσ he h2 => WithPlan.loose (withPlan (by simp [shipped]) read_gt netGt_ok gt_sheet
      (tableOK rfl) netGt_loop real5Plan_sections real5Plan_ok) (by norm_num) real5One_arcs real5One_choices
      real5One_times real5One_cases h1 hi hb hσ he (.inr h2),
    fun _ _ _ _ h1 hi hb _ hσ he => WithPlan.loose (withPlan (by simp [shipped]) read_gt netGt_ok gt_sheet
      (tableOK rfl) netGt_loop real5Plan_sections real5Plan_ok) (by norm_num) real5Some_arcs
      real5Some_choices real5Some_times real5Some_cases h1 hi hb hσ he (.inl real5Some_plain)⟩

theorem real6_loose : LooseBounds ⟨net, one, "16:00"⟩ real6Delays 40 206 46 :=
  ⟨fun _ _ _ _ h1 hi hb _ hσ he h2 => WithPlan.loose (withPlan (by simp [shipped]) read_one net_ok one_sheet
      (tableOK rfl) net_loop real6Plan_sections real6Plan_ok) (by norm_num) real6One_arcs real6One_choices
      real6One_times real6One_cases h1 hi hb hσ he (.inr h2),
    fun _ _ _ _ h1 hi hb _ hσ he => WithPlan.loose (withPlan (by simp [shipped]) read_one net_ok one_sheet
      (tableOK rfl) net_loop real6Plan_sections real6Plan_ok) (by norm_num) real6Some_arcs
      real6Some_choices real6Some_times real6Some_cases h1 hi hb hσ he (.inl real6Some_plain)⟩

/-- the three cases with bounds -/
theorem loose_qubo {c : Shipped × List (Int × ℚ) × ℚ} (hc : c ∈ realCases) {B₁ B₂ : Nat}
    (L : LooseBounds c.1 c.2.1 40 B₁ B₂) (hd : c.1 ∈ shipped)
    (hdl : (c.2.1.all fun x => x.2.den == 1) = true) {p : ℚ} (hp : 0 ≤ p)
    (h1 : c.2.2 / 40 < p + (B₁ : ℚ) / 4 / 40) (h2 : c.2.2 / 40 < 2 * p + (B₂ : ℚ) / 4 / 40)
    (h4 : c.2.2 / 40 < 4 * p) : QuboSolves c.1 c.2.1 40 (penalties p) (c.2.2 / 40) := by
  have hO := C79_real c hc .integer
  have hq := C81_real c hc (|c.2.2| + 1) (by positivity) (by
    have := le_abs_self c.2.2
    have := abs_nonneg c.2.2
    linarith)
  have e : ((40 : Nat) : ℚ) = 40 := by norm_num
  have := L.qubo (p := p) hd (by norm_num) (wholeDelays hdl) (by rw [e]; exact hO) (by rw [e]; exact hq) hp
    (by rw [e]; exact h1) (by rw [e]; exact h2) h4
  rw [e] at this
  exact this

/-- **C81**, case 5 of `solve_real_problem.py`: the bit strings of least energy are those of the best
solutions exactly if the penalty is larger than 5/4. -/
theorem C81_case5 {p : ℚ} (h0 : 0 ≤ p) :
    QuboSolves ⟨netGt, gt, "16:00"⟩ real5Delays 40 (penalties p) (459 / 4 / 40) ↔ 5 / 4 < p := by
  refine ⟨fun h => not_le.1 fun hp => C81_small h0 hp h, fun hp => ?_⟩
  exact loose_qubo (c := (⟨netGt, gt, "16:00"⟩, real5Delays, 459 / 4)) (by
    unfold realCases real5Delays
    simp) real5_loose (by simp [shipped]) (by decide +kernel) h0 (by norm_num; linarith)
    (by norm_num; linarith) (by norm_num; linarith)

/-- **C81**, the default penalty of `solve_real_problem.py` (lines 79-84) is large enough in all cases but 5,
in which it is not (`C81_default_false`). -/
theorem C81_default_partial : ∀ c ∈ realCases.eraseIdx 5,
    QuboSolves c.1 c.2.1 40 (penalties 1) (c.2.2 / 40) := by
  intro c hc
  have hm := List.mem_of_mem_eraseIdx hc
  have h : c ∈ realCases.take 4 ∨ c = (⟨netGt, gt, "16:00"⟩, real4Delays, 313 / 4) ∨
      c = (⟨net, one, "16:00"⟩, real6Delays, 365 / 4) := by
    simp only [realCases, List.eraseIdx, List.mem_cons, List.not_mem_nil, or_false] at hc
    rcases hc with rfl | rfl | rfl | rfl | rfl | rfl
    · exact .inl (by simp [realCases])
    · exact .inl (by simp [realCases])
    · exact .inl (by simp [realCases])
    · exact .inl (by simp [realCases])
    · exact .inr (.inl rfl)
    · exact .inr (.inr rfl)
  rcases h with h | rfl | rfl
  · exact C81_low c h
  · exact loose_qubo hm real4_loose (by simp [shipped]) (by decide +kernel) (by norm_num) (by norm_num)
      (by norm_num) (by norm_num)
  · exact loose_qubo hm real6_loose (by simp [shipped]) (by decide +kernel) (by norm_num) (by norm_num)
      (by norm_num) (by norm_num)

/-- **C81**, with the penalty 2.5, the default according to `/repo/README.md`, line 125, in all cases of
`solve_real_problem.py` -/
theorem C81_readme : ∀ c ∈ realCases, QuboSolves c.1 c.2.1 40 (penalties (5 / 2)) (c.2.2 / 40) := by
  intro c hc
  by_cases h : c.2.2 < 40 * (5 / 2)
  · exact C81_real c hc _ (by norm_num) h
  · have e : c = (⟨netGt, gt, "16:00"⟩, real5Delays, 459 / 4) := by
      simp only [realCases, List.mem_cons, List.not_mem_nil, or_false] at hc
      rcases hc with rfl | rfl | rfl | rfl | rfl | rfl | rfl
      · exact absurd (by norm_num) h
      · exact absurd (by norm_num) h
      · exact absurd (by norm_num) h
      · exact absurd (by norm_num) h
      · exact absurd (by norm_num) h
      · rfl
      · exact absurd (by norm_num) h
    subst e
    exact (C81_case5 (by norm_num)).2 (by norm_num)

end Real

end Verif
