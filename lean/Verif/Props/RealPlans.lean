import Verif.Props.RealRules
import Verif.Proofs.PlanBound
import Verif.Proofs.PlanSum
import Verif.Real.PlanBase
import Verif.Real.PlanGt
import Verif.Real.PlanOne
import Verif.Real.PlanOneGt
import Verif.Real.PlanKo1
import Verif.Real.PlanKo2
import Verif.Real.PlanKo3
import Verif.Real.CasesKo2

/-!
# C73: which of the shipped problems have a solution

For the seven shipped timetables without given delays: plans that keep all the rules, and pairs of
trains that force a delay. The plans are in `Verif/Real/Plan*.lean`; the kernel checks them.
-/

namespace Verif

/-- the rules for a larger `d_max` -/
theorem TableRules.mono {td : Trains} {st : Stations} {table : List PathRow} {t1 : String} {r : Int}
    {delays : List (Int × ℚ)} {d d' : ℚ} {cat : Cat} {π : TablePlan} (h : d ≤ d')
    (R : TableRules td st table t1 r delays d cat π) :
    TableRules td st table t1 r delays d' cat π :=
  { R with
    late := fun t x rows e h1 h2 h3 =>
      let ⟨q1, q2, q3⟩ := R.late t x rows e h1 h2 h3
      ⟨q1, q2.trans (by linarith), q3⟩ }

namespace Real

/-- The problem that the scripts make of the sheet `d`, with rounded times, has a solution.
(`/repo/solve_real_problem.py`, lines 110-228, `/repo/solve_KO_GLC_problems.py`, lines 86-167) -/
def Solvable (d : Shipped) (delays : List (Int × ℚ)) (dmax : ℚ) (cat : Cat) : Prop :=
  ∃ td ts tt b σ, buildTimetables d.sheet d.net.stationTable d.net.pathTable = .ok td ∧
    makeInput td d.net.stationTable d.net.pathTable d.start 1 delays = .ok (ts, tt) ∧
    buildProblem ts tt dmax cat = .ok b ∧ Feasible b σ

theorem net_loop : net.NoLoop := by unfold CodedNet.NoLoop; decide +kernel
theorem netGt_loop : netGt.NoLoop := by unfold CodedNet.NoLoop; decide +kernel
theorem netKo_loop : netKo.NoLoop := by unfold CodedNet.NoLoop; decide +kernel
theorem netKoR_loop : netKoR.NoLoop := by unfold CodedNet.NoLoop; decide +kernel

/-- a shipped sheet with a plan that passes the checks -/
structure WithPlan (d : Shipped) (delays : List (Int × ℚ)) (D : Int) (sp : CodedNet.Special)
    (P : CodedNet.Plan) : Prop where
  mem : d ∈ shipped
  against : ∀ a ∈ CodedNet.items P, ∀ b ∈ CodedNet.items P, CodedNet.againstOK a b = true
  planned : ∃ good td, buildTimetables d.sheet d.net.stationTable d.net.pathTable = .ok td ∧
    AllMeet td ∧ d.net.Planned good td d.start delays D sp P ∧ CodedNet.Typed td P

theorem withPlan {d : Shipped} {cs : List CodedSection} {good : List (Nat × Nat)}
    {R : List (Nat × Nat × List Nat)} {delays : List (Int × ℚ)} {D : Int} {sp : CodedNet.Special}
    {P : CodedNet.Plan} (hd : d ∈ shipped) (h : ReadAs d cs) (W : d.net.NetOK good)
    (S : d.net.SheetOK good R cs) (T : d.net.TableOK) (hl : d.net.NoLoop) (hP : P.map Prod.fst = cs)
    (ok : d.net.PlanOK d.start delays D sp P) : WithPlan d delays D sp P := by
  obtain ⟨td, h1, h2⟩ := h.1.load h.2
  have L := h.1.loaded h2
  have C := CodedNet.coded_of_checks W S T hl h2 L
  exact ⟨hd, ok.against, good, td, h1, (h.1.readable L).meet, ⟨W, h.1.goodData L, T, hP ▸ C, ok.toPlanBase⟩,
    CodedNet.typed_of S hP L⟩

theorem WithPlan.solvable {d : Shipped} {delays : List (Int × ℚ)} {D : Int}
    {sp : CodedNet.Special} {P : CodedNet.Plan} (h : WithPlan d delays D sp P) {dmax : ℚ} (h0 : 0 < dmax) (hD : D ≤ dmax) (cat : Cat) :
    Solvable d delays dmax cat := by
  obtain ⟨good, td, h1, hm, K, -⟩ := h.planned
  obtain ⟨td', h1', h2⟩ := C64_shipped d h.mem
  obtain ⟨td'', h1'', h3⟩ := C71_shipped d h.mem
  rw [h1] at h1' h1''
  cases h1'
  cases h1''
  obtain ⟨ts, tt, b, hi, hb⟩ := h2 1 delays dmax cat h0.ne'
  obtain ⟨σ, hσ, -⟩ := ((h3 1 delays dmax cat ts tt b h0 hi hb).1 (CodedNet.tablePlan d.net P).dep).2
    ⟨_, _, _, (CodedNet.Planned.rules K h.against).mono hD⟩
  exact ⟨td, ts, tt, b, σ, h1, hi, hb, hσ⟩

/-- in every solution trains keep the rules -/
theorem WithPlan.rules {d : Shipped} {delays : List (Int × ℚ)} {D : Int}
    {sp : CodedNet.Special} {P : CodedNet.Plan} (h : WithPlan d delays D sp P) {dmax : ℚ} (h0 : 0 < dmax) {cat : Cat}
    (hs : Solvable d delays dmax cat) : ∃ good td π,
      d.net.Planned good td d.start delays D sp P ∧ CodedNet.HasEarliest td d.start delays ∧
      TableRules td d.net.stationTable d.net.pathTable d.start 1 delays dmax cat π := by
  obtain ⟨good, td, h1, hm, K, -⟩ := h.planned
  obtain ⟨td', h1', h2⟩ := C64_shipped d h.mem
  obtain ⟨td'', h1'', h3⟩ := C71_shipped d h.mem
  obtain ⟨td3, ts, tt, b, σ, h13, hi, hb, hσ⟩ := hs
  rw [h1] at h1' h1'' h13
  cases h1'
  cases h1''
  cases h13
  have E := CodedNet.hasEarliest K.data hi
  obtain ⟨dep, hdep⟩ := departs_exist K.data hm hi hb σ
  obtain ⟨f, a, e, R⟩ := ((h3 1 delays dmax cat ts tt b h0 hi hb).1 dep).1 ⟨σ, hσ, hdep⟩
  exact ⟨good, td, _, K, E, R⟩


/-- With a plan in which no train is later than it must be, there is a solution without delays. -/
theorem WithPlan.punctual {d : Shipped} {delays : List (Int × ℚ)}
    {sp : CodedNet.Special} {P : CodedNet.Plan} (h : WithPlan d delays 0 sp P) {dmax : ℚ} (h0 : 0 < dmax) (cat : Cat) :
    ∃ td ts tt b σ, buildTimetables d.sheet d.net.stationTable d.net.pathTable = .ok td ∧
      makeInput td d.net.stationTable d.net.pathTable d.start 1 delays = .ok (ts, tt) ∧
      buildProblem ts tt dmax cat = .ok b ∧ Feasible b σ ∧ b.prob.objective.eval σ = 0 := by
  obtain ⟨good, td, h1, hm, K, -⟩ := h.planned
  obtain ⟨td', h1', h2⟩ := C64_shipped d h.mem
  obtain ⟨td'', h1'', h3⟩ := C71_shipped d h.mem
  rw [h1] at h1' h1''
  cases h1'
  cases h1''
  obtain ⟨ts, tt, b, hi, hb⟩ := h2 1 delays dmax cat h0.ne'
  have R := CodedNet.Planned.rules K h.against (cat := cat)
  obtain ⟨σ, hσ, hd⟩ := ((h3 1 delays dmax cat ts tt b h0 hi hb).1 (CodedNet.tablePlan d.net P).dep).2
    ⟨_, _, _, R.mono (by exact_mod_cast h0.le)⟩
  refine ⟨td, ts, tt, b, σ, h1, hi, hb, hσ, ?_⟩
  obtain ⟨cs, hcs, -⟩ := counted_all K.data hi (CodedNet.tablePlan d.net P).dep
  rw [C72_objective K.data hi hb hd hcs]
  have hz : ∀ c ∈ cs, c = 0 := by
    intro c hc
    obtain ⟨t, ht, hq⟩ := forall₂_right hcs hc
    obtain ⟨info, rows, ty, w, x, e, hg, hty, hw, hl, he, hc⟩ := hq
    rcases hc with ⟨-, rfl⟩ | ⟨-, rfl⟩
    · rfl
    · obtain ⟨q1, q2, -⟩ := R.late t x rows e ⟨info, hg⟩ (hl.leaves K.data) he
      have : (CodedNet.tablePlan d.net P).dep t x = e := by
        push_cast at q2
        linarith
      rw [this]
      ring
  rw [List.sum_eq_zero hz, zero_div]

theorem plan_base : WithPlan ⟨net, base, "16:00"⟩ [] 19 netSpecial basePlan :=
  withPlan (by simp [shipped]) read_base net_ok base_sheet (tableOK rfl) net_loop
    basePlan_sections basePlan_ok

theorem plan_gt : WithPlan ⟨netGt, gt, "16:00"⟩ [] 19 netGtSpecial gtPlan :=
  withPlan (by simp [shipped]) read_gt netGt_ok gt_sheet (tableOK rfl) netGt_loop
    gtPlan_sections gtPlan_ok

theorem plan_one : WithPlan ⟨net, one, "16:00"⟩ [] 19 netSpecial onePlan :=
  withPlan (by simp [shipped]) read_one net_ok one_sheet (tableOK rfl) net_loop
    onePlan_sections onePlan_ok

theorem plan_onegt : WithPlan ⟨netGt, onegt, "16:00"⟩ [] 19 netGtSpecial onegtPlan :=
  withPlan (by simp [shipped]) read_onegt netGt_ok onegt_sheet (tableOK rfl) netGt_loop
    onegtPlan_sections onegtPlan_ok

theorem plan_ko1 : WithPlan ⟨netKo, ko1All, "14:00"⟩ [] 0 netKoSpecial ko1Plan :=
  withPlan (by simp [shipped]) read_ko1 netKo_ok ko1_sheet (tableOK rfl) netKo_loop
    ko1Plan_sections ko1Plan_ok

theorem plan_ko2 : WithPlan ⟨netKoR, ko2All, "14:00"⟩ [] 18 netKoRSpecial ko2Plan :=
  withPlan (by simp [shipped]) read_ko2 netKoR_ok ko2_sheet (tableOK rfl) netKoR_loop
    ko2Plan_sections ko2Plan_ok

theorem plan_ko3 : WithPlan ⟨netKoR, ko3All, "14:00"⟩ [] 1 netKoRSpecial ko3Plan :=
  withPlan (by simp [shipped]) read_ko3 netKoR_ok ko3_sheet (tableOK rfl) netKoR_loop
    ko3Plan_sections ko3Plan_ok

theorem WithPlan.same {d : Shipped} {D : Int} {sp : CodedNet.Special}
    {P : CodedNet.Plan} (h : WithPlan d [] D sp P)
    {k k' i : Nat} (hc : d.net.sameTrack P k k' i D = true) {dmax : ℚ} (h0 : 0 < dmax) (cat : Cat) :
    Solvable d [] dmax cat ↔ D ≤ dmax := by
  refine ⟨fun hs => ?_, fun hD => h.solvable h0 hD cat⟩
  obtain ⟨good, td, π, K, E, R⟩ := h.rules h0 hs
  exact K.sameTrack_bound E R hc

/-- **C73**, the sheets of `solve_real_problem.py`: without given delays there is a solution exactly
when `d_max` is at least 19. With `d_max` less than that no solver can find one. -/
theorem C73_real : ∀ d ∈ shipped.take 4, ∀ dmax cat, 0 < dmax →
    (Solvable d [] dmax cat ↔ 19 ≤ dmax) := by
  intro d hd dmax cat h0
  simp only [shipped, List.take_succ_cons, List.take_zero, List.mem_cons, List.not_mem_nil,
    or_false] at hd
  rcases hd with rfl | rfl | rfl | rfl
  · exact plan_base.same (k := 8) (k' := 16) (i := 1) (by decide +kernel) h0 cat
  · exact plan_gt.same (k := 8) (k' := 16) (i := 1) (by decide +kernel) h0 cat
  · exact plan_one.same (k := 8) (k' := 16) (i := 1) (by decide +kernel) h0 cat
  · exact plan_onegt.same (k := 8) (k' := 16) (i := 1) (by decide +kernel) h0 cat

/-- **C73**, the first sheet of `solve_KO_GLC_problems.py`: there is always a solution without
delays. -/
theorem C73_ko1 {dmax : ℚ} (h0 : 0 < dmax) (cat : Cat) :
    ∃ td ts tt b σ, buildTimetables (sheetOf (ko1All.map netKo.sec)) netKo.stationTable netKo.pathTable
        = .ok td ∧ makeInput td netKo.stationTable netKo.pathTable "14:00" 1 [] = .ok (ts, tt) ∧
      buildProblem ts tt dmax cat = .ok b ∧ Feasible b σ ∧ b.prob.objective.eval σ = 0 :=
  plan_ko1.punctual h0 cat

/-- **C73**, the second sheet of `solve_KO_GLC_problems.py`: there is a solution exactly when `d_max` is
at least 18. -/
theorem C73_ko2 {dmax : ℚ} (h0 : 0 < dmax) (cat : Cat) :
    Solvable ⟨netKoR, ko2All, "14:00"⟩ [] dmax cat ↔ 18 ≤ dmax := by
  refine ⟨fun hs => ?_, fun hD => plan_ko2.solvable h0 (by exact_mod_cast hD) cat⟩
  obtain ⟨good, td, π, K, E, R⟩ := plan_ko2.rules h0 hs
  exact_mod_cast K.tree_bound E R ko2_arcs ko2_choices ko2_cases

/-- **C73**, the third sheet of `solve_KO_GLC_problems.py`: there is a solution exactly when `d_max` is
at least 1. -/
theorem C73_ko3 {dmax : ℚ} (h0 : 0 < dmax) (cat : Cat) :
    Solvable ⟨netKoR, ko3All, "14:00"⟩ [] dmax cat ↔ 1 ≤ dmax := by
  refine ⟨fun hs => ?_, fun hD => plan_ko3.solvable h0 (by exact_mod_cast hD) cat⟩
  obtain ⟨good, td, π, K, E, R⟩ := plan_ko3.rules h0 hs
  exact_mod_cast K.crossed_bound (k := 6) (k' := 17) (i := 2) (D := 1) E R (by decide +kernel)

/-- **C73**, with the `d_max` of the scripts: without given delays each of the seven problems has a
solution. (`/repo/solve_real_problem.py`, line 132, `/repo/solve_KO_GLC_problems.py`, line 100) -/
theorem C73_shipped : ∀ d ∈ shipped, ∀ cat, Solvable d [] 40 cat := by
  intro d hd cat
  simp only [shipped, List.mem_cons, List.not_mem_nil, or_false] at hd
  rcases hd with rfl | rfl | rfl | rfl | rfl | rfl | rfl
  · exact plan_base.solvable (by norm_num) (by norm_num) cat
  · exact plan_gt.solvable (by norm_num) (by norm_num) cat
  · exact plan_one.solvable (by norm_num) (by norm_num) cat
  · exact plan_onegt.solvable (by norm_num) (by norm_num) cat
  · exact plan_ko1.solvable (by norm_num) (by norm_num) cat
  · exact plan_ko2.solvable (by norm_num) (by norm_num) cat
  · exact plan_ko3.solvable (by norm_num) (by norm_num) cat

end Real

end Verif
