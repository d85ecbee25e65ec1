import Verif.Spec.Rules

/-!
# A small instance with all families of constraints

Line A - B - C; trains 1, 2 run A → B → C, train 3 runs B → A and continues there as train 4
(A → B). Used to show that the hypotheses of the theorems can be met.
-/

namespace Verif.Small

abbrev A : Val := .str "A"
abbrev B : Val := .str "B"
abbrev C : Val := .str "C"
abbrev t (n : Int) : Val := .int n

def ts : TrainSets where
  skipStation := some [(t 1, C), (t 2, C), (t 4, B)]
  paths := [(t 1, [A, B, C]), (t 2, [A, B, C]), (t 3, [B, A]), (t 4, [A, B])]
  J := [t 1, t 2, t 3, t 4]
  Jd := [(A, [(B, [[t 1, t 2, t 4]])]), (B, [(C, [[t 1, t 2]]), (A, [[t 3]])])]
  Josingle := [((A, B), [(t 1, t 3), (t 2, t 3), (t 4, t 3)])]
  Jround := [(A, [(t 3, t 4)])]
  Jtrack := [(A, [[t 1, t 3, t 4]]), (B, [[t 1, t 2]])]
  Jswitch := [(B, [[(t 1, "out"), (t 3, "out")], [(t 1, "in"), (t 2, "in")],
      [(t 2, "out"), (t 3, "out")]]),
    (A, [[(t 3, "in"), (t 1, "out")]])]
  addSwithes := .none

def tt : Timetable where
  tauPass := [("1_A_B", 5), ("2_A_B", 5), ("4_A_B", 5), ("3_B_A", 5), ("1_B_C", 4), ("2_B_C", 4)]
  tauHeadway := [("1_2_A_B", 2), ("2_1_A_B", 2), ("1_4_A_B", 2), ("4_1_A_B", 2), ("2_4_A_B", 2),
    ("4_2_A_B", 2), ("1_2_B_C", 2), ("2_1_B_C", 2)]
  tauStop := [("1_B", 1), ("2_B", 1), ("3_A", 1)]
  tauPrep := [("4_A", 2)]
  tauRes := some 1
  schedule := some [("1_A", 0), ("2_A", 2), ("3_B", 3), ("1_B", 6), ("4_A", 10)]
  initialConditions := [("1_A", 4), ("2_A", 2), ("3_B", 3), ("4_A", 10)]
  penaltyWeights := [("1_B", 2), ("2_B", 1), ("4_A", 1)]

/-- the delays and precedences of a solution: train 2 four minutes, trains 3 and 4 eight minutes
late -/
def σ (v : LpVar) : ℚ :=
  match v.vid with
  | .delay j s =>
    if (j, s) = (t 2, A) ∨ (j, s) = (t 2, B) then 4
    else if (j, s) = (t 3, B) ∨ (j, s) = (t 4, A) then 8 else 0
  | .order a b c d => if (a, b, c, d) = (t 2, t 3, oneStation, B) then 0 else 1

theorem namesOK : NamesOK ts := by
  refine ⟨⟨?_, ?_, ?_, ?_, ?_, ?_⟩, ?_⟩ <;> decide

theorem wellFormed : WellFormed ts := by
  refine ⟨?_, ?_, ?_, ?_⟩ <;> decide

end Verif.Small
