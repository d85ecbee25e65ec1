import Verif.Tests.Cases
import Verif.Tests.Certs

/-!
# The other problems of the tests: the numbers and the proofs of the optima are right
-/

namespace Verif.SolverTests

theorem koStm_code : koStm.code = some (koStmCode, koStmGoals) := by decide +kernel
theorem koStm_lower : koStmCode.lowerOK koStm.objective koStmLower = true := by decide +kernel
theorem koStm_point : koStmCode.pointOK koStm.objective koStmPoint = true := by decide +kernel
theorem koStm_other : koStmCode.pointOK koStm.objective koStmOther = true := by decide +kernel
theorem koStm_rest :
    (koStm.without [] [(.int 1, .str "A")]).code =
      some (koStmCode, koStmSettled) := by decide +kernel
theorem koStm_trees : koStmCode.goalsOK koStm.objective koStmSettled koStmTrees = true := by
  decide +kernel

theorem icStmKo_code : icStmKo.code = some (icStmKoCode, icStmKoGoals) := by decide +kernel
theorem icStmKo_lower : icStmKoCode.lowerOK icStmKo.objective icStmKoLower = true := by decide +kernel
theorem icStmKo_point : icStmKoCode.pointOK icStmKo.objective icStmKoPoint = true := by decide +kernel
theorem icStmKo_trees : icStmKoCode.goalsOK icStmKo.objective icStmKoGoals icStmKoTrees = true := by
  decide +kernel

theorem qip1_code : qip1.code = some (qip1Code, qip1Goals) := by decide +kernel
theorem qip1_lower : qip1Code.lowerOK qip1.objective qip1Lower = true := by decide +kernel
theorem qip1_point : qip1Code.pointOK qip1.objective qip1Point = true := by decide +kernel
theorem qip1_other : qip1Code.pointOK qip1.objective qip1Other = true := by decide +kernel
theorem qip1_rest :
    (qip1.without [1] [(.int 0, .str "B")]).code =
      some (qip1Code, qip1Settled) := by decide +kernel
theorem qip1_trees : qip1Code.goalsOK qip1.objective qip1Settled qip1Trees = true := by
  decide +kernel

theorem qip2_code : qip2.code = some (qip2Code, qip2Goals) := by decide +kernel
theorem qip2_lower : qip2Code.lowerOK qip2.objective qip2Lower = true := by decide +kernel
theorem qip2_point : qip2Code.pointOK qip2.objective qip2Point = true := by decide +kernel
theorem qip2_trees : qip2Code.goalsOK qip2.objective qip2Goals qip2Trees = true := by
  decide +kernel

theorem qip3_code : qip3.code = some (qip3Code, qip3Goals) := by decide +kernel
theorem qip3_lower : qip3Code.lowerOK qip3.objective qip3Lower = true := by decide +kernel
theorem qip3_point : qip3Code.pointOK qip3.objective qip3Point = true := by decide +kernel
theorem qip3_other : qip3Code.pointOK qip3.objective qip3Other = true := by decide +kernel
theorem qip3_rest :
    (qip3.without [1] []).code =
      some (qip3Code, qip3Settled) := by decide +kernel
theorem qip3_trees : qip3Code.goalsOK qip3.objective qip3Settled qip3Trees = true := by
  decide +kernel

theorem mlp_code : mlp.code = some (mlpCode, mlpGoals) := by decide +kernel
theorem mlp_lower : mlpCode.lowerOK mlp.objective mlpLower = true := by decide +kernel
theorem mlp_point : mlpCode.pointOK mlp.objective mlpPoint = true := by decide +kernel
theorem mlp_other : mlpCode.pointOK mlp.objective mlpOther = true := by decide +kernel
theorem mlp_rest :
    (mlp.without [1] []).code =
      some (mlpCode, mlpSettled) := by decide +kernel
theorem mlp_trees : mlpCode.goalsOK mlp.objective mlpSettled mlpTrees = true := by
  decide +kernel

theorem fiveTrains_code : fiveTrains.code = some (fiveTrainsCode, fiveTrainsGoals) := by decide +kernel
theorem fiveTrains_lower : fiveTrainsCode.lowerOK fiveTrains.objective fiveTrainsLower = true := by decide +kernel
theorem fiveTrains_point : fiveTrainsCode.pointOK fiveTrains.objective fiveTrainsPoint = true := by decide +kernel
theorem fiveTrains_trees : fiveTrainsCode.goalsOK fiveTrains.objective fiveTrainsGoals fiveTrainsTrees = true := by
  decide +kernel

theorem manyTrains_code : manyTrains.code = some (manyTrainsCode, manyTrainsGoals) := by decide +kernel
theorem manyTrains_lower : manyTrainsCode.lowerOK manyTrains.objective manyTrainsLower = true := by decide +kernel
theorem manyTrains_point : manyTrainsCode.pointOK manyTrains.objective manyTrainsPoint = true := by decide +kernel
theorem manyTrains_trees : manyTrainsCode.goalsOK manyTrains.objective manyTrainsGoals manyTrainsTrees = true := by
  decide +kernel

end Verif.SolverTests
