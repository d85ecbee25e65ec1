import Verif.Props.Safe

/-!
# Where the guarantees of C57, C58 and C60 end: feasible plans with collisions
-/

namespace Verif

/-- input is made, a problem is built, and the plan is feasible with these departures -/
def checkRun (td : Trains) (st : Stations) (table : List PathRow) (t1 : String) (r : Int)
    (delays : List (Int × ℚ)) (dmax : ℚ) (σ : LpVar → ℚ) (deps : List (Int × String × ℚ)) : Bool :=
  match makeInput td st table t1 r delays with
  | .ok (ts, tt) => checkAll ts tt dmax .integer σ &&
      deps.all fun e => checkDeparts ts tt dmax .integer σ (.int e.1) (.str e.2.1) e.2.2
  | .error _ => false

theorem run_of_check {td : Trains} {st : Stations} {table : List PathRow} {t1 : String} {r : Int}
    {delays : List (Int × ℚ)} {dmax : ℚ} {σ : LpVar → ℚ} {deps : List (Int × String × ℚ)}
    (h : checkRun td st table t1 r delays dmax σ deps = true)
    (hd : ∀ v j s, v.vid = .delay j s → 0 ≤ σ v ∧ σ v ≤ dmax ∧ ∃ n : ℤ, σ v = n)
    (ho : ∀ v a b c d, v.vid = .order a b c d → σ v = 0 ∨ σ v = 1) :
    ∃ ts tt b, makeInput td st table t1 r delays = .ok (ts, tt) ∧
      buildProblem ts tt dmax .integer = .ok b ∧ Feasible b σ ∧
      ∀ t s d, (t, s, d) ∈ deps → Departs ts tt b.dv σ (.int t) (.str s) d := by
  unfold checkRun at h
  split at h
  · rename_i ts tt hi
    rw [Bool.and_eq_true, List.all_eq_true] at h
    obtain ⟨b, hb, hf⟩ := feasible_of_check h.1 hd ho
    exact ⟨ts, tt, b, hi, hb, hf, fun t s d hm => Verif.departs_of_check hb (h.2 _ hm)⟩
  · cases h

theorem allMeet_of_check {td : Trains}
    (h : ∀ n ∈ Dict.keys td, 10 * n + 9 ∉ Dict.keys td) : AllMeet td :=
  fun n h1 h2 => absurd h2 (h n h1)

/-- one train goes from `A` to `B`, another from `B` to `A`, on the same blocks at the same time; both
end there -/
def headOn : Trains :=
  [(1, (["KS - Os"],
    [{ path := "a", station := some "A", passingTime := some 1, dep := some "12:00" },
     { path := "l1", passingTime := some 2 }, { path := "l2", passingTime := some 3 },
     { path := "b", station := some "B", passingTime := some 0 }])),
   (2, (["KS - Os"],
    [{ path := "b2", station := some "B", passingTime := some 1, dep := some "12:01" },
     { path := "l2", passingTime := some 3 }, { path := "l1", passingTime := some 2 },
     { path := "a2", station := some "A", passingTime := some 0 }]))]

def twoEnds : Stations := [("A", ["a", "a2"]), ("B", ["b", "b2"])]

theorem twoEnds_wf : WfStations twoEnds :=
  wfStations_of_check (by decide +kernel) (by decide +kernel)

theorem headOn_good : GoodData headOn twoEnds where
  trains := ⟨by decide +kernel, by unfold OnceEach; decide +kernel,
    by unfold BlocksOnce; decide +kernel⟩
  stations := twoEnds_wf
  tagged := tagged_of_check twoEnds_wf.1 (by decide +kernel)
  names := by
    have h : ∀ e ∈ twoEnds, e.1 = "A" ∨ e.1 = "B" := by decide +kernel
    intro e he
    rcases h e he with h | h <;> rw [h] <;> decide

/-- all trains leave in time -/
theorem plan_delay {dmax : ℚ} (h : 0 ≤ dmax) : ∀ v j s, v.vid = .delay j s →
    0 ≤ Shuttle.plan v ∧ Shuttle.plan v ≤ dmax ∧ ∃ n : ℤ, Shuttle.plan v = n := fun v j s hv => by
  have : Shuttle.plan v = 0 := by unfold Shuttle.plan; rw [hv]
  rw [this]; exact ⟨le_refl _, h, 0, by simp⟩

theorem plan_order : ∀ v a b c d, v.vid = .order a b c d →
    Shuttle.plan v = 0 ∨ Shuttle.plan v = 1 :=
  fun v a b c d hv => .inr (by unfold Shuttle.plan; rw [hv])

/-- C57 is false of the code without the condition: both trains end at the other end, and a plan is
feasible in which they meet on the line. -/
theorem C57_false : GoodData headOn twoEnds ∧ AllMeet headOn ∧ ¬ Paired 1 2 ∧
    ∃ rows rows' m m', TableOf headOn 1 rows ∧ TableOf headOn 2 rows' ∧
      Consecutive rows "A" "B" m ∧ Consecutive rows' "B" "A" m' ∧ m ≠ [] ∧
      m.map (·.path) = (m'.map (·.path)).reverse ∧ ∃ ts tt b d d',
      makeInput headOn twoEnds [] "12:00" 1 [] = .ok (ts, tt) ∧
      buildProblem ts tt 10 .integer = .ok b ∧ Feasible b Shuttle.plan ∧
      Departs ts tt b.dv Shuttle.plan (.int 1) (.str "A") d ∧
      Departs ts tt b.dv Shuttle.plan (.int 2) (.str "B") d' ∧
      d < d' + roundIf 1 (timesOf m').sum ∧ d' < d + roundIf 1 (timesOf m).sum := by
  obtain ⟨ts, tt, b, h, hb, hf, hd⟩ := run_of_check (td := headOn) (st := twoEnds) (table := [])
    (t1 := "12:00") (r := 1) (delays := []) (dmax := 10) (σ := Shuttle.plan)
    (deps := [(1, "A", 0), (2, "B", 1)]) (by decide +kernel) (plan_delay (by norm_num)) plan_order
  refine ⟨headOn_good, allMeet_of_check (by decide +kernel), by unfold Paired; decide, _, _,
    [{ path := "l1", passingTime := some 2 }, { path := "l2", passingTime := some 3 }],
    [{ path := "l2", passingTime := some 3 }, { path := "l1", passingTime := some 2 }], ⟨_, rfl⟩,
    ⟨_, rfl⟩, ⟨[], _, _, _, rfl, rfl, rfl, by simp⟩, ⟨[], _, _, _, rfl, rfl, rfl, by simp⟩, by simp,
    rfl, ts, tt, b, 0, 1, h, hb, hf, hd _ _ _ (by simp), hd _ _ _ (by simp), by decide +kernel,
    by decide +kernel⟩

/-- Trains between `A`, `B` and `C`. Train 1 goes on at `B`, train 2 goes on at `A`: `josingle` lists
them under the first station. Train 3 ends in `A`, so it is looked for under the second one, which is
left out because the pair of stations is there already. -/
def headOn2 : Trains :=
  [(1, (["KS - Os"],
    [{ path := "a", station := some "A", passingTime := some 1, dep := some "12:00" },
     { path := "l1", passingTime := some 2 }, { path := "l2", passingTime := some 3 },
     { path := "b", station := some "B", passingTime := some 1, dep := some "12:06" },
     { path := "l3", passingTime := some 3 },
     { path := "c", station := some "C", passingTime := some 0 }])),
   (2, (["KS - Os"],
    [{ path := "b2", station := some "B", passingTime := some 1, dep := some "12:20" },
     { path := "l2", passingTime := some 3 }, { path := "l1", passingTime := some 2 },
     { path := "a", station := some "A", passingTime := some 1, dep := some "12:26" },
     { path := "l4", passingTime := some 3 },
     { path := "d", station := some "D", passingTime := some 0 }])),
   (3, (["KS - Os"],
    [{ path := "b2", station := some "B", passingTime := some 1, dep := some "12:01" },
     { path := "l2", passingTime := some 3 }, { path := "l1", passingTime := some 2 },
     { path := "a2", station := some "A", passingTime := some 0 }]))]

def fourEnds : Stations := [("A", ["a", "a2"]), ("B", ["b", "b2"]), ("C", ["c"]), ("D", ["d"])]

theorem fourEnds_wf : WfStations fourEnds :=
  wfStations_of_check (by decide +kernel) (by decide +kernel)

theorem headOn2_good : GoodData headOn2 fourEnds where
  trains := ⟨by decide +kernel, by unfold OnceEach; decide +kernel,
    by unfold BlocksOnce; decide +kernel⟩
  stations := fourEnds_wf
  tagged := tagged_of_check fourEnds_wf.1 (by decide +kernel)
  names := by
    have h : ∀ e ∈ fourEnds, e.1 = "A" ∨ e.1 = "B" ∨ e.1 = "C" ∨ e.1 = "D" := by decide +kernel
    intro e he
    rcases h e he with h | h | h | h <;> rw [h] <;> decide

/-- the order of trains 2 and 3 leaving `B` is not the order of their numbers -/
def plan2 (v : LpVar) : ℚ :=
  match v.vid with
  | .delay _ _ => 0
  | .order a b _ _ => if a = .int 2 ∧ b = .int 3 then 0 else 1

/-- C57 is false of the code also if only one of the trains ends at the other end: train 1 goes on
at `B`, train 3 ends in `A`. -/
theorem C57_false2 : GoodData headOn2 fourEnds ∧ AllMeet headOn2 ∧ ¬ Paired 1 3 ∧
    ¬ EndsIn headOn2 fourEnds 1 "B" ∧
    ∃ rows rows' m m', TableOf headOn2 1 rows ∧ TableOf headOn2 3 rows' ∧
      Consecutive rows "A" "B" m ∧ Consecutive rows' "B" "A" m' ∧ m ≠ [] ∧
      m.map (·.path) = (m'.map (·.path)).reverse ∧ ∃ ts tt b d d',
      makeInput headOn2 fourEnds [] "12:00" 1 [] = .ok (ts, tt) ∧
      buildProblem ts tt 10 .integer = .ok b ∧ Feasible b plan2 ∧
      Departs ts tt b.dv plan2 (.int 1) (.str "A") d ∧
      Departs ts tt b.dv plan2 (.int 3) (.str "B") d' ∧
      d < d' + roundIf 1 (timesOf m').sum ∧ d' < d + roundIf 1 (timesOf m).sum := by
  obtain ⟨ts, tt, b, h, hb, hf, hd⟩ := run_of_check (td := headOn2) (st := fourEnds) (table := [])
    (t1 := "12:00") (r := 1) (delays := []) (dmax := 10) (σ := plan2)
    (deps := [(1, "A", 0), (3, "B", 1)]) (by decide +kernel)
    (fun v j s hv => by
      have : plan2 v = 0 := by unfold plan2; rw [hv]
      rw [this]; exact ⟨le_refl _, by norm_num, 0, by simp⟩)
    (fun v a b c d hv => by
      unfold plan2; rw [hv]; simp only
      split
      · exact .inl rfl
      · exact .inr rfl)
  refine ⟨headOn2_good, allMeet_of_check (by decide +kernel), by unfold Paired; decide,
    fun he => endsOnly_of_check (P := (· ≠ "B")) (by decide +kernel) he rfl, _, _,
    [{ path := "l1", passingTime := some 2 }, { path := "l2", passingTime := some 3 }],
    [{ path := "l2", passingTime := some 3 }, { path := "l1", passingTime := some 2 }], ⟨_, rfl⟩,
    ⟨_, rfl⟩, ⟨[], _, _, _, rfl, rfl, rfl, by simp⟩, ⟨[], _, _, _, rfl, rfl, rfl, by simp⟩, by simp,
    rfl, ts, tt, b, 0, 1, h, hb, hf, hd _ _ _ (by simp), hd _ _ _ (by simp), by decide +kernel,
    by decide +kernel⟩

/-! ## C58 -/

/-- two trains from `A` over `K` to `KO` -/
def inName : Trains :=
  [(1, (["KS - Os"],
    [{ path := "a", station := some "A", passingTime := some 1, dep := some "12:00" },
     { path := "l1", passingTime := some 5 },
     { path := "k", station := some "K", passingTime := some 1, dep := some "12:20" },
     { path := "l3", passingTime := some 3 },
     { path := "o", station := some "KO", passingTime := some 0 }])),
   (3, (["KS - Os"],
    [{ path := "a", station := some "A", passingTime := some 1, dep := some "12:10" },
     { path := "l1", passingTime := some 5 },
     { path := "k", station := some "K", passingTime := some 1, dep := some "12:25" },
     { path := "l3", passingTime := some 3 },
     { path := "o2", station := some "KO", passingTime := some 0 }]))]

def nameStations : Stations := [("A", ["a"]), ("K", ["k"]), ("KO", ["o", "o2"])]

theorem nameStations_wf : WfStations nameStations :=
  wfStations_of_check (by decide +kernel) (by decide +kernel)

theorem inName_good : GoodData inName nameStations where
  trains := ⟨by decide +kernel, by unfold OnceEach; decide +kernel,
    by unfold BlocksOnce; decide +kernel⟩
  stations := nameStations_wf
  tagged := tagged_of_check nameStations_wf.1 (by decide +kernel)
  names := by
    have h : ∀ e ∈ nameStations, e.1 = "A" ∨ e.1 = "K" ∨ e.1 = "KO" := by decide +kernel
    intro e he
    rcases h e he with h | h | h <;> rw [h] <;> decide

/-- C58 is false of the code without the condition on names: both trains go on at `K` and use its
track `k`, but they end in `KO`; in a feasible plan train 3 arrives at minute 15, when train 1 is there
until minute 20. -/
theorem C58_false : GoodData inName nameStations ∧ AllMeet inName ∧ ¬ Paired 1 3 ∧
    ¬ EndsIn inName nameStations 1 "K" ∧ ¬ EndsIn inName nameStations 3 "K" ∧
    ∃ rows rows' m m' q q', TableOf inName 1 rows ∧ TableOf inName 3 rows' ∧
      Consecutive rows "A" "K" m ∧ Consecutive rows' "A" "K" m' ∧ q ∈ rows ∧ q' ∈ rows' ∧
      q.station = some "K" ∧ q'.station = some "K" ∧ q.path = q'.path ∧ ∃ ts tt b dp dp' d d',
      makeInput inName nameStations [] "12:00" 1 [] = .ok (ts, tt) ∧
      buildProblem ts tt 10 .integer = .ok b ∧ Feasible b Shuttle.plan ∧
      Departs ts tt b.dv Shuttle.plan (.int 1) (.str "A") dp ∧
      Departs ts tt b.dv Shuttle.plan (.int 3) (.str "A") dp' ∧
      Departs ts tt b.dv Shuttle.plan (.int 1) (.str "K") d ∧
      Departs ts tt b.dv Shuttle.plan (.int 3) (.str "K") d' ∧
      dp' + roundIf 1 (timesOf m').sum < d ∧ dp + roundIf 1 (timesOf m).sum < d' := by
  obtain ⟨ts, tt, b, h, hb, hf, hd⟩ := run_of_check (td := inName) (st := nameStations)
    (table := []) (t1 := "12:00") (r := 1) (delays := []) (dmax := 10) (σ := Shuttle.plan)
    (deps := [(1, "A", 0), (3, "A", 10), (1, "K", 20), (3, "K", 25)]) (by decide +kernel)
    (plan_delay (by norm_num)) plan_order
  refine ⟨inName_good, allMeet_of_check (by decide +kernel), by unfold Paired; decide,
    fun he => endsOnly_of_check (P := (· ≠ "K")) (by decide +kernel) he rfl,
    fun he => endsOnly_of_check (P := (· ≠ "K")) (by decide +kernel) he rfl, _, _,
    [{ path := "l1", passingTime := some 5 }], [{ path := "l1", passingTime := some 5 }],
    { path := "k", station := some "K", passingTime := some 1, dep := some "12:20" },
    { path := "k", station := some "K", passingTime := some 1, dep := some "12:25" }, ⟨_, rfl⟩,
    ⟨_, rfl⟩, ⟨[], _, _, _, rfl, rfl, rfl, by simp⟩, ⟨[], _, _, _, rfl, rfl, rfl, by simp⟩, by simp,
    by simp, rfl, rfl, rfl, ts, tt, b, 0, 10, 20, 25, h, hb, hf, hd _ _ _ (by simp),
    hd _ _ _ (by simp), hd _ _ _ (by simp), hd _ _ _ (by simp), by decide +kernel,
    by decide +kernel⟩

/-! ## C60 -/

/-- two trains leave `KO(IC)` over switch 7 -/
def atIC : Trains :=
  [(1, (["KS - Os"],
    [{ path := "k1", station := some "KO(IC)", passingTime := some 1, dep := some "12:00" },
     { path := "l1", passingTime := some 5 },
     { path := "a", station := some "A", passingTime := some 0 }])),
   (3, (["KS - Os"],
    [{ path := "k2", station := some "KO(IC)", passingTime := some 1, dep := some "12:00" },
     { path := "l2", passingTime := some 5 },
     { path := "b", station := some "B", passingTime := some 0 }]))]

def icStations : Stations := [("KO(IC)", ["k1", "k2"]), ("A", ["a"]), ("B", ["b"])]

def icTable : List PathRow :=
  [{ prev := "k1", next := "l1", switches := .textInt 7 },
   { prev := "k2", next := "l2", switches := .textInt 7 }]

theorem icStations_wf : WfStations icStations :=
  wfStations_of_check (by decide +kernel) (by decide +kernel)

theorem atIC_good : GoodData atIC icStations where
  trains := ⟨by decide +kernel, by unfold OnceEach; decide +kernel,
    by unfold BlocksOnce; decide +kernel⟩
  stations := icStations_wf
  tagged := tagged_of_check icStations_wf.1 (by decide +kernel)
  names := by
    have h : ∀ e ∈ icStations, e.1 = "KO(IC)" ∨ e.1 = "A" ∨ e.1 = "B" := by decide +kernel
    intro e he
    rcases h e he with h | h | h <;> rw [h] <;> decide

/-- C60 is false of the code at the station `KO(IC)`: in a feasible plan two trains leave at the same
time over switch 7. -/
theorem C60_false : GoodData atIC icStations ∧ AllMeet atIC ∧ ¬ Paired 1 3 ∧ SameCells icTable ∧
    SwitchesAt atIC icTable 1 "KO(IC)" "out" [7] ∧ SwitchesAt atIC icTable 3 "KO(IC)" "out" [7] ∧
    ∃ ts tt b, makeInput atIC icStations icTable "12:00" 1 [] = .ok (ts, tt) ∧
      buildProblem ts tt 10 .integer = .ok b ∧ Feasible b Shuttle.plan ∧
      PassesSwitches atIC 1 (Departs ts tt b.dv Shuttle.plan) "KO(IC)" 1 "out" 0 ∧
      PassesSwitches atIC 1 (Departs ts tt b.dv Shuttle.plan) "KO(IC)" 3 "out" 0 := by
  obtain ⟨ts, tt, b, h, hb, hf, hd⟩ := run_of_check (td := atIC) (st := icStations)
    (table := icTable) (t1 := "12:00") (r := 1) (delays := []) (dmax := 10) (σ := Shuttle.plan)
    (deps := [(1, "KO(IC)", 0), (3, "KO(IC)", 0)]) (by decide +kernel)
    (plan_delay (by norm_num)) plan_order
  let e1 : PathRow := { prev := "k1", next := "l1", switches := .textInt 7 }
  let e2 : PathRow := { prev := "k2", next := "l2", switches := .textInt 7 }
  exact ⟨atIC_good, allMeet_of_check (by decide +kernel), by unfold Paired; decide,
    sameCells_of_check (by decide +kernel),
    ⟨_, ⟨_, rfl⟩, .inr ⟨rfl, [], _, _, rfl, rfl, .inr ⟨⟨_, List.mem_cons_of_mem _
      List.mem_cons_self, by simp⟩, _, _, rfl, .inr ⟨e1, by simp [icTable, e1], .inl ⟨rfl, rfl⟩,
        rfl⟩⟩⟩⟩,
    ⟨_, ⟨_, rfl⟩, .inr ⟨rfl, [], _, _, rfl, rfl, .inr ⟨⟨_, List.mem_cons_of_mem _
      List.mem_cons_self, by simp⟩, _, _, rfl, .inr ⟨e2, by simp [icTable, e2], .inl ⟨rfl, rfl⟩,
        rfl⟩⟩⟩⟩,
    ts, tt, b, h, hb, hf, .inl ⟨rfl, hd _ _ _ (by simp)⟩, .inl ⟨rfl, hd _ _ _ (by simp)⟩⟩

/-- two trains arrive at `KO(STM)` over switch 7, one of them from `KO` -/
def atSTM : Trains :=
  [(1, (["KS - Os"],
    [{ path := "k", station := some "KO", passingTime := some 1, dep := some "12:00" },
     { path := "l1", passingTime := some 5 },
     { path := "m1", station := some "KO(STM)", passingTime := some 0 }])),
   (3, (["KS - Os"],
    [{ path := "a", station := some "A", passingTime := some 1, dep := some "12:00" },
     { path := "l2", passingTime := some 5 },
     { path := "m2", station := some "KO(STM)", passingTime := some 0 }]))]

def stmStations : Stations := [("KO", ["k"]), ("KO(STM)", ["m1", "m2"]), ("A", ["a"])]

def stmTable : List PathRow :=
  [{ prev := "l1", next := "m1", switches := .textInt 7 },
   { prev := "l2", next := "m2", switches := .textInt 7 }]

theorem stmStations_wf : WfStations stmStations :=
  wfStations_of_check (by decide +kernel) (by decide +kernel)

theorem atSTM_good : GoodData atSTM stmStations where
  trains := ⟨by decide +kernel, by unfold OnceEach; decide +kernel,
    by unfold BlocksOnce; decide +kernel⟩
  stations := stmStations_wf
  tagged := tagged_of_check stmStations_wf.1 (by decide +kernel)
  names := by
    have h : ∀ e ∈ stmStations, e.1 = "KO" ∨ e.1 = "KO(STM)" ∨ e.1 = "A" := by decide +kernel
    intro e he
    rcases h e he with h | h | h <;> rw [h] <;> decide

/-- C60 is false of the code at `KO(STM)` for a train that comes from `KO`: in a feasible plan two
trains arrive at the same time over switch 7. -/
theorem C60_false2 : GoodData atSTM stmStations ∧ AllMeet atSTM ∧ ¬ Paired 1 3 ∧
    SameCells stmTable ∧ ToOrFromKO atSTM 1 "in" ∧ ¬ ToOrFromKO atSTM 3 "in" ∧
    SwitchesAt atSTM stmTable 1 "KO(STM)" "in" [7] ∧
    SwitchesAt atSTM stmTable 3 "KO(STM)" "in" [7] ∧
    ∃ ts tt b, makeInput atSTM stmStations stmTable "12:00" 1 [] = .ok (ts, tt) ∧
      buildProblem ts tt 10 .integer = .ok b ∧ Feasible b Shuttle.plan ∧
      PassesSwitches atSTM 1 (Departs ts tt b.dv Shuttle.plan) "KO(STM)" 1 "in" 5 ∧
      PassesSwitches atSTM 1 (Departs ts tt b.dv Shuttle.plan) "KO(STM)" 3 "in" 5 := by
  obtain ⟨ts, tt, b, h, hb, hf, hd⟩ := run_of_check (td := atSTM) (st := stmStations)
    (table := stmTable) (t1 := "12:00") (r := 1) (delays := []) (dmax := 10) (σ := Shuttle.plan)
    (deps := [(1, "KO", 0), (3, "A", 0)]) (by decide +kernel)
    (plan_delay (by norm_num)) plan_order
  let e1 : PathRow := { prev := "l1", next := "m1", switches := .textInt 7 }
  let e2 : PathRow := { prev := "l2", next := "m2", switches := .textInt 7 }
  refine ⟨atSTM_good, allMeet_of_check (by decide +kernel), by unfold Paired; decide,
    sameCells_of_check (by decide +kernel),
    .inl ⟨rfl, ["l1"], _, [_], ⟨_, rfl⟩, ⟨[], _, _, _, rfl, rfl, rfl, by simp⟩, rfl⟩, ?_,
    ⟨_, ⟨_, rfl⟩, .inl ⟨rfl, [_, _], _, _, rfl, rfl, .inr ⟨⟨_, List.mem_cons_self, by simp⟩,
      [_], _, rfl, .inr ⟨e1, by simp [stmTable, e1], .inl ⟨rfl, rfl⟩, rfl⟩⟩⟩⟩,
    ⟨_, ⟨_, rfl⟩, .inl ⟨rfl, [_, _], _, _, rfl, rfl, .inr ⟨⟨_, List.mem_cons_self, by simp⟩,
      [_], _, rfl, .inr ⟨e2, by simp [stmTable, e2], .inl ⟨rfl, rfl⟩, rfl⟩⟩⟩⟩,
    ts, tt, b, h, hb, hf,
    .inr ⟨rfl, _, "KO", [{ path := "l1", passingTime := some 5 }], 0, ⟨_, rfl⟩,
      ⟨[], _, _, _, rfl, rfl, rfl, by simp⟩, hd _ _ _ (by simp), by decide +kernel⟩,
    .inr ⟨rfl, _, "A", [{ path := "l2", passingTime := some 5 }], 0, ⟨_, rfl⟩,
      ⟨[], _, _, _, rfl, rfl, rfl, by simp⟩, hd _ _ _ (by simp), by decide +kernel⟩⟩
  intro hk
  have := (viaKO_iff atSTM_good.trains.once (t := 3) (tt := _) ⟨_, rfl⟩ (p := "in")).2 hk
  rcases this with ⟨-, h⟩ | ⟨h, -⟩
  · revert h; decide +kernel
  · exact absurd h (by decide)

end Verif
