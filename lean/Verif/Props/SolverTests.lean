import Verif.Tests.Checks1
import Verif.Tests.Checks2

/-!
# C80: the solver tests of the project

`test_linear_solver.py` and `test_linear_solver_large.py` solve 17 problems and assert the objective
and values of variables. The theorems say what these assertions mean for all solvers.
-/

namespace Verif.SolverTests

/-- the tests that solve a problem -/
def cases : List Case :=
  [oneWay, deadlock, circulation, stationTrack, mpSwitches, mpNoStation, threeTrains, trackCirc,
    trackCirc2, koStm, icStmKo, qip1, qip2, qip3, mlp, fiveTrains, manyTrains]

/-- the full claim: every optimal answer passes every test -/
def C80_statement : Prop := ∀ c ∈ cases, ∀ b, buildProblem c.ts c.tt c.dmax c.cat = .ok b →
  ∀ σ, b.IsOptimal σ → c.Passes b σ

/-- the tests that assert values which the problem leaves open, and these values: positions in
`prob.variables()`, and arguments of `delay_and_acctual_time` -/
def openCases : List (Case × List ℕ × List (Val × Val)) :=
  [(trackCirc, [], [(.int 2, .str "B")]), (koStm, [], [(.int 1, .str "A")]),
    (qip1, [1], [(.int 0, .str "B")]), (qip3, [1], []), (mlp, [1], [])]

/-- the other tests -/
def settledCases : List Case :=
  [oneWay, deadlock, circulation, stationTrack, mpSwitches, mpNoStation, threeTrains, trackCirc2,
    icStmKo, qip2, fiveTrains, manyTrains]

/-! ## The theorems -/

/-- **C80**: each test can pass. The asserted values belong to an optimal answer. -/
theorem C80_attained : ∀ c ∈ cases, ∃ b, buildProblem c.ts c.tt c.dmax c.cat = .ok b ∧
    ∃ σ, b.IsOptimal σ ∧ c.Passes b σ := by
  simp only [cases, List.forall_mem_cons]
  refine ⟨passes_of oneWay_code oneWay_lower oneWay_point (by decide +kernel),
    passes_of deadlock_code deadlock_lower deadlock_point (by decide +kernel),
    passes_of circulation_code circulation_lower circulation_point (by decide +kernel),
    passes_of stationTrack_code stationTrack_lower stationTrack_point (by decide +kernel),
    passes_of mpSwitches_code mpSwitches_lower mpSwitches_point (by decide +kernel),
    passes_of mpNoStation_code mpNoStation_lower mpNoStation_point (by decide +kernel),
    passes_of threeTrains_code threeTrains_lower threeTrains_point (by decide +kernel),
    passes_of trackCirc_code trackCirc_lower trackCirc_point (by decide +kernel),
    passes_of trackCirc2_code trackCirc2_lower trackCirc2_point (by decide +kernel),
    passes_of koStm_code koStm_lower koStm_point (by decide +kernel),
    passes_of icStmKo_code icStmKo_lower icStmKo_point (by decide +kernel),
    passes_of qip1_code qip1_lower qip1_point (by decide +kernel),
    passes_of qip2_code qip2_lower qip2_point (by decide +kernel),
    passes_of qip3_code qip3_lower qip3_point (by decide +kernel),
    passes_of mlp_code mlp_lower mlp_point (by decide +kernel),
    passes_of fiveTrains_code fiveTrains_lower fiveTrains_point (by decide +kernel),
    passes_of manyTrains_code manyTrains_lower manyTrains_point (by decide +kernel), fun _ h => nomatch h⟩

/-- **C80**, the objectives: every feasible answer costs at least what the test asserts, and every
optimal one costs exactly that. -/
theorem C80_objective : ∀ c ∈ cases, ∀ b, buildProblem c.ts c.tt c.dmax c.cat = .ok b →
    (∀ σ, Feasible b σ → c.objective ≤ b.prob.objective.eval σ) ∧
    ∀ σ, b.IsOptimal σ → b.prob.objective.eval σ = c.objective := by
  have key : ∀ c ∈ cases, ∃ K gs t, c.code = some (K, gs) ∧ K.lowerOK c.objective t = true := by
    simp only [cases, List.forall_mem_cons]
    exact ⟨⟨_, _, _, oneWay_code, oneWay_lower⟩,
      ⟨_, _, _, deadlock_code, deadlock_lower⟩,
      ⟨_, _, _, circulation_code, circulation_lower⟩,
      ⟨_, _, _, stationTrack_code, stationTrack_lower⟩,
      ⟨_, _, _, mpSwitches_code, mpSwitches_lower⟩,
      ⟨_, _, _, mpNoStation_code, mpNoStation_lower⟩,
      ⟨_, _, _, threeTrains_code, threeTrains_lower⟩,
      ⟨_, _, _, trackCirc_code, trackCirc_lower⟩,
      ⟨_, _, _, trackCirc2_code, trackCirc2_lower⟩,
      ⟨_, _, _, koStm_code, koStm_lower⟩,
      ⟨_, _, _, icStmKo_code, icStmKo_lower⟩,
      ⟨_, _, _, qip1_code, qip1_lower⟩,
      ⟨_, _, _, qip2_code, qip2_lower⟩,
      ⟨_, _, _, qip3_code, qip3_lower⟩,
      ⟨_, _, _, mlp_code, mlp_lower⟩,
      ⟨_, _, _, fiveTrains_code, fiveTrains_lower⟩,
      ⟨_, _, _, manyTrains_code, manyTrains_lower⟩, fun _ h => nomatch h⟩
  intro c hc b hb
  obtain ⟨K, gs, t, h1, h2⟩ := key c hc
  refine ⟨fun σ hf => lower_spec h1 h2 hb hf, fun σ hσ => ?_⟩
  obtain ⟨b', hb', σ', hσ', hp⟩ := C80_attained c hc
  cases hb.symm.trans hb'
  exact le_antisymm ((hσ.2 σ' hσ'.1).trans hp.objective.le) (lower_spec h1 h2 hb hσ.1)

/-- **C80**, the full claim for twelve of the tests: whatever optimal answer a solver returns, the test
passes. -/
theorem C80_settled : ∀ c ∈ settledCases, ∀ b, buildProblem c.ts c.tt c.dmax c.cat = .ok b →
    ∀ σ, b.IsOptimal σ → c.Passes b σ := by
  simp only [settledCases, List.forall_mem_cons]
  exact ⟨determined_of oneWay_code oneWay_lower oneWay_point oneWay_trees,
    determined_of deadlock_code deadlock_lower deadlock_point deadlock_trees,
    determined_of circulation_code circulation_lower circulation_point circulation_trees,
    determined_of stationTrack_code stationTrack_lower stationTrack_point stationTrack_trees,
    determined_of mpSwitches_code mpSwitches_lower mpSwitches_point mpSwitches_trees,
    determined_of mpNoStation_code mpNoStation_lower mpNoStation_point mpNoStation_trees,
    determined_of threeTrains_code threeTrains_lower threeTrains_point threeTrains_trees,
    determined_of trackCirc2_code trackCirc2_lower trackCirc2_point trackCirc2_trees,
    determined_of icStmKo_code icStmKo_lower icStmKo_point icStmKo_trees,
    determined_of qip2_code qip2_lower qip2_point qip2_trees,
    determined_of fiveTrains_code fiveTrains_lower fiveTrains_point fiveTrains_trees,
    determined_of manyTrains_code manyTrains_lower manyTrains_point manyTrains_trees, fun _ h => nomatch h⟩

/-- **C80**, refutation: for the five other tests a solver may return an optimal answer for which the
test fails. -/
theorem C80_open : ∀ x ∈ openCases, ∃ b, buildProblem x.1.ts x.1.tt x.1.dmax x.1.cat = .ok b ∧
    ∃ σ, b.IsOptimal σ ∧ ¬ x.1.Passes b σ := by
  simp only [openCases, List.forall_mem_cons]
  exact ⟨loose_of trackCirc_code trackCirc_lower trackCirc_other (by decide +kernel),
    loose_of koStm_code koStm_lower koStm_other (by decide +kernel),
    loose_of qip1_code qip1_lower qip1_other (by decide +kernel),
    loose_of qip3_code qip3_lower qip3_other (by decide +kernel),
    loose_of mlp_code mlp_lower mlp_other (by decide +kernel), fun _ h => nomatch h⟩

theorem C80_false : ¬ C80_statement := by
  intro h
  obtain ⟨b, hb, σ, hσ, hn⟩ := C80_open _ (List.mem_cons_self ..)
  exact hn (h trackCirc (by simp [cases]) b hb σ hσ)

/-- **C80**, what holds for the five tests: all other assertions. Missing: the assertions about the
listed variables. -/
theorem C80_open_partial : ∀ x ∈ openCases, ∀ b, buildProblem x.1.ts x.1.tt x.1.dmax x.1.cat = .ok b →
    ∀ σ, b.IsOptimal σ → (x.1.without x.2.1 x.2.2).Passes b σ := by
  simp only [openCases, List.forall_mem_cons]
  exact ⟨determined_of (c := trackCirc.without [] [(.int 2, .str "B")]) trackCirc_rest trackCirc_lower trackCirc_point trackCirc_trees,
    determined_of (c := koStm.without [] [(.int 1, .str "A")]) koStm_rest koStm_lower koStm_point koStm_trees,
    determined_of (c := qip1.without [1] [(.int 0, .str "B")]) qip1_rest qip1_lower qip1_point qip1_trees,
    determined_of (c := qip3.without [1] []) qip3_rest qip3_lower qip3_point qip3_trees,
    determined_of (c := mlp.without [1] []) mlp_rest mlp_lower mlp_point mlp_trees, fun _ h => nomatch h⟩

/-- the twelve and the five are all tests -/
theorem cases_split : ∀ c ∈ cases, c ∈ settledCases ∨ ∃ x ∈ openCases, x.1 = c := by
  simp [cases, settledCases, openCases]

end Verif.SolverTests
