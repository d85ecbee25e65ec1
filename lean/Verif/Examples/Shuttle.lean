import Verif.Proofs.GenBuild
import Verif.Examples.Check

/-!
# Example data for the generated input

Trains 1 and 3 run from `A` over `B` to `C`. Train 19 takes over the rolling stock of train 1 in `C`
and goes back to `B` over the same block `l3`, and on another track to `A`.
-/

namespace Verif
namespace Shuttle

def stations : Stations := [("A", ["a", "a2"]), ("B", ["b"]), ("C", ["c", "c2"])]

def trains : Trains :=
  [(1, (["KS - Os"],
    [{ path := "a", station := some "A", passingTime := some 1, dep := some "12:00" },
     { path := "l1", passingTime := some 2 }, { path := "l2", passingTime := some 3 },
     { path := "b", station := some "B", passingTime := some 1, dep := some "12:08" },
     { path := "l3", passingTime := some 4 },
     { path := "c", station := some "C", passingTime := some 0 }])),
   (3, (["KS - Os"],
    [{ path := "a", station := some "A", passingTime := some 1, dep := some "12:10" },
     { path := "l1", passingTime := some 2 }, { path := "l2", passingTime := some 3 },
     { path := "b", station := some "B", passingTime := some 1, dep := some "12:18" },
     { path := "l3", passingTime := some 4 },
     { path := "c2", station := some "C", passingTime := some 0 }])),
   (19, (["KS - Os"],
    [{ path := "c", station := some "C", passingTime := some 1, turnaround := some 6,
       dep := some "12:25" },
     { path := "l3", passingTime := some 4 },
     { path := "b", station := some "B", passingTime := some 1, dep := some "12:31" },
     { path := "k1", passingTime := some 5 },
     { path := "a2", station := some "A", passingTime := some 0 }]))]

/-- the switches -/
def table : List PathRow :=
  [{ prev := "a", next := "l1", switches := .textInt 1 },
   { prev := "k1", next := "a2", switches := .textInt 1 },
   { prev := "l2", next := "b", switches := .textInt 3 },
   { prev := "b", next := "k1", switches := .textTuple [3, 5] },
   { prev := "b", next := "l3", switches := .textInt 9 },
   { prev := "l3", next := "c", switches := .textInt 7 },
   { prev := "l3", next := "c2", switches := .textInt 7 }]

theorem stations_wf : WfStations stations :=
  wfStations_of_check (by decide +kernel) (by decide +kernel)

theorem good : GoodData trains stations where
  trains := ⟨by decide +kernel, by unfold OnceEach; decide +kernel, by unfold BlocksOnce; decide +kernel⟩
  stations := stations_wf
  tagged := tagged_of_check stations_wf.1 (by decide +kernel)
  names := by
    have h : ∀ e ∈ stations, e.1 = "A" ∨ e.1 = "B" ∨ e.1 = "C" := by decide +kernel
    intro e he
    rcases h e he with h | h | h <;> rw [h] <;> decide

/-- a plan: every train leaves as early as it can, trains in the order of their numbers -/
def plan (v : LpVar) : ℚ :=
  match v.vid with
  | .delay _ _ => 0
  | .order _ _ _ _ => 1

/-- executable check that the plan is feasible -/
def checkPlan (r : Int) (delays : List (Int × ℚ)) : Bool :=
  match makeInput trains stations table "12:00" r delays with
  | .ok (ts, tt) => checkAll ts tt 20 .integer plan
  | .error _ => false

theorem feasible_of_plan {r : Int} {delays : List (Int × ℚ)} (h : checkPlan r delays = true) :
    ∃ ts tt b, makeInput trains stations table "12:00" r delays = .ok (ts, tt) ∧
      buildProblem ts tt 20 .integer = .ok b ∧ Feasible b plan := by
  unfold checkPlan at h
  split at h
  · rename_i ts tt hi
    obtain ⟨b, hb, hf⟩ := feasible_of_check h
      (fun v j s hv => by
        have : plan v = 0 := by unfold plan; rw [hv]
        rw [this]; exact ⟨le_refl _, by norm_num, 0, by simp⟩)
      (fun v a b c d hv => .inr (by unfold plan; rw [hv]))
    exact ⟨ts, tt, b, hi, hb, hf⟩
  · cases h

/-- train 1 is late by three minutes -/
theorem made : ∃ ts tt b, makeInput trains stations table "12:00" 0 [(1, 3)] = .ok (ts, tt) ∧
    buildProblem ts tt 20 .integer = .ok b ∧ Feasible b plan :=
  feasible_of_plan (by decide +kernel)

/-- executable check of a departure in the plan -/
def checkDep (r : Int) (delays : List (Int × ℚ)) (t : Int) (s : String) (d : ℚ) : Bool :=
  match makeInput trains stations table "12:00" r delays with
  | .ok (ts, tt) => checkDeparts ts tt 20 .integer plan (.int t) (.str s) d
  | .error _ => false

theorem departs_of_check {r : Int} {delays : List (Int × ℚ)} {ts : TrainSets} {tt : Timetable}
    {b : Built} {t : Int} {s : String} {d : ℚ}
    (h : makeInput trains stations table "12:00" r delays = .ok (ts, tt))
    (hb : buildProblem ts tt 20 .integer = .ok b) (hc : checkDep r delays t s d = true) :
    Departs ts tt b.dv plan (.int t) (.str s) d := by
  unfold checkDep at hc
  rw [h] at hc
  exact Verif.departs_of_check hb hc

/-- the pair of trains 1 and 19 meets in block `c` -/
theorem meet : AllMeet trains := by
  have hk : ∀ n ∈ Dict.keys trains, 10 * n + 9 ∈ Dict.keys trains → n = 1 := by decide +kernel
  intro n h1 h2
  rw [hk n h1 h2]
  exact ⟨"c", .inl ⟨⟨_, _, ⟨_, rfl⟩, rfl, rfl⟩, ⟨_, _, ⟨_, rfl⟩, rfl, rfl⟩⟩⟩

end Shuttle
end Verif
