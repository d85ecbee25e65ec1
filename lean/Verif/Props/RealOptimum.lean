import Verif.Props.RealPlans
import Verif.Real.OptReal1
import Verif.Real.OptReal2
import Verif.Real.OptReal3
import Verif.Real.OptReal4
import Verif.Real.OptReal5
import Verif.Real.OptReal6
import Verif.Real.OptKo1n1
import Verif.Real.OptKo1n2
import Verif.Real.OptKo1n3
import Verif.Real.OptKo1n4
import Verif.Real.OptKo1n5
import Verif.Real.OptKo1n6
import Verif.Real.OptKo1n7
import Verif.Real.OptKo1n8
import Verif.Real.OptKo1n9
import Verif.Real.OptKo1n10
import Verif.Real.OptKo1n11
import Verif.Real.OptKo3n1
import Verif.Real.OptKo3n2
import Verif.Real.OptKo3n3
import Verif.Real.OptKo3n4
import Verif.Real.OptKo3n5
import Verif.Real.OptKo3n6
import Verif.Real.OptKo3n7
import Verif.Real.OptKo3n8
import Verif.Real.OptKo3n9
import Verif.Real.OptKo3n10
import Verif.Real.OptKo3n11

/-!
# C79: the optimum of the shipped problems

For the given delays of the scripts, with `d_max = 40`: a plan and a proof by cases that no plan is better
(`Verif/Real/Opt*.lean`; the kernel checks both).
-/

namespace Verif

namespace Real

/-- The smallest value that the objective has in a solution of the problem that the scripts make of the
sheet `d`. (`/repo/solve_real_problem.py`, lines 110-228, `/repo/solve_KO_GLC_problems.py`, lines
86-167) -/
def Optimum (d : Shipped) (delays : List (Int × ℚ)) (dmax : ℚ) (cat : Cat) (v : ℚ) : Prop :=
  ∃ td ts tt b, buildTimetables d.sheet d.net.stationTable d.net.pathTable = .ok td ∧
    makeInput td d.net.stationTable d.net.pathTable d.start 1 delays = .ok (ts, tt) ∧
    buildProblem ts tt dmax cat = .ok b ∧ (∃ σ, Feasible b σ ∧ b.prob.objective.eval σ = v) ∧
    ∀ σ, Feasible b σ → v ≤ b.prob.objective.eval σ

/-- A plan and a proof by cases give the optimum. -/
theorem WithPlan.optimum {d : Shipped} {delays : List (Int × ℚ)} {D : Nat} {sp : CodedNet.Special}
    {P : CodedNet.Plan} (h : WithPlan d delays D sp P) (h0 : 0 < D) {B z : Nat}
    (hB : d.net.costOK P B = true) {ns : List (Nat × Nat)} {cs : List CodedNet.Choice} {arcs : ArcTree}
    {tree : SumTree} {S : TimeTree} (hA : arcs.toList.all (d.net.arcOK sp P ns cs) = true)
    (hC : cs.all (CodedNet.Choice.ok d.net sp P) = true) (hS : d.net.startOK P ns z D S = true)
    (hT : tree.check arcs B cs.length [] S 0 = true) (cat : Cat) :
    Optimum d delays D cat ((B : ℚ) / 4 / D) := by
  obtain ⟨good, td, h1, hm, K, Ty⟩ := h.planned
  obtain ⟨td', h1', h2⟩ := C64_shipped d h.mem
  obtain ⟨td'', h1'', h3⟩ := C71_shipped d h.mem
  rw [h1] at h1' h1''
  cases h1'
  cases h1''
  have hD : (0 : ℚ) < D := by exact_mod_cast h0
  obtain ⟨ts, tt, b, hi, hb⟩ := h2 1 delays D cat hD.ne'
  have E := CodedNet.hasEarliest K.data hi
  refine ⟨td, ts, tt, b, h1, hi, hb, ?_, fun σ hσ => ?_⟩
  · obtain ⟨σ, hσ, hd⟩ := ((h3 1 delays D cat ts tt b hD hi hb).1
      (CodedNet.tablePlan d.net P).dep).2 ⟨_, _, _, CodedNet.Planned.rules K h.against⟩
    obtain ⟨ds, hds, hsum⟩ := K.cost E Ty hB
    refine ⟨σ, hσ, ?_⟩
    rw [C72_objective K.data hi hb hd hds, ← hsum]
    ring
  · obtain ⟨dep, hdep⟩ := departs_exist K.data hm hi hb σ
    obtain ⟨f, a, e, R⟩ := ((h3 1 delays D cat ts tt b hD hi hb).1 dep).1 ⟨σ, hσ, hdep⟩
    obtain ⟨ds, hds, -⟩ := counted_all K.data hi dep
    rw [C72_objective K.data hi hb hdep hds]
    have := K.sum_bound E Ty R (fun t c c' ht hc hc' => (counted_exists K.data hi dep ht).unique hc hc')
      hA hC hS hT hds
    apply div_le_div_of_nonneg_right _ hD.le
    linarith

/-- A plan in which no delay counts is optimal. -/
theorem WithPlan.optimum_zero {d : Shipped} {delays : List (Int × ℚ)} {D : Int} {sp : CodedNet.Special}
    {P : CodedNet.Plan} (h : WithPlan d delays D sp P) {dmax : ℚ} (h0 : 0 < dmax) (hD : D ≤ dmax)
    (hB : d.net.costOK P 0 = true) (cat : Cat) : Optimum d delays dmax cat 0 := by
  obtain ⟨good, td, h1, hm, K, Ty⟩ := h.planned
  obtain ⟨td', h1', h2⟩ := C64_shipped d h.mem
  obtain ⟨td'', h1'', h3⟩ := C71_shipped d h.mem
  rw [h1] at h1' h1''
  cases h1'
  cases h1''
  obtain ⟨ts, tt, b, hi, hb⟩ := h2 1 delays dmax cat h0.ne'
  have E := CodedNet.hasEarliest K.data hi
  refine ⟨td, ts, tt, b, h1, hi, hb, ?_, fun σ hσ => ?_⟩
  · obtain ⟨σ, hσ, hd⟩ := ((h3 1 delays dmax cat ts tt b h0 hi hb).1
      (CodedNet.tablePlan d.net P).dep).2 ⟨_, _, _, (CodedNet.Planned.rules K h.against).mono hD⟩
    obtain ⟨ds, hds, hsum⟩ := K.cost E Ty hB
    refine ⟨σ, hσ, ?_⟩
    rw [C72_objective K.data hi hb hd hds]
    have : ds.sum = 0 := by
      push_cast at hsum
      linarith
    rw [this, zero_div]
  · obtain ⟨dep, hdep⟩ := departs_exist K.data hm hi hb σ
    obtain ⟨f, a, e, R⟩ := ((h3 1 delays dmax cat ts tt b h0 hi hb).1 dep).1 ⟨σ, hσ, hdep⟩
    obtain ⟨ds, hds, -⟩ := counted_all K.data hi dep
    rw [C72_objective K.data hi hb hdep hds]
    apply div_nonneg _ h0.le
    apply List.sum_nonneg
    intro c hc
    obtain ⟨t, ht, hq⟩ := forall₂_right hds hc
    obtain ⟨info, rows, ty, w, x, e, hg, hty, hw, hl, he, hc⟩ := hq
    rcases hc with ⟨-, rfl⟩ | ⟨-, rfl⟩
    · rfl
    · have q := (R.late t x rows e ⟨info, hg⟩ (hl.leaves K.data) he).1
      have hw0 : 0 ≤ w := by
        rcases hw with ⟨-, rfl⟩ | ⟨-, rfl⟩ | ⟨-, rfl⟩ <;> norm_num
      exact mul_nonneg hw0 (by linarith)

/-- the same delays and the same value, otherwise written -/
theorem Optimum.as {d : Shipped} {delays delays' : List (Int × ℚ)} {dmax : Nat} {v v' : ℚ}
    (h : ∀ cat, Optimum d delays dmax cat v) (hd : delays = delays') (hv : v = v' / dmax) (cat : Cat) :
    Optimum d delays' dmax cat (v' / dmax) := hd ▸ hv ▸ h cat

theorem real1_optimum (cat : Cat) :
    Optimum ⟨net, base, "16:00"⟩ real1Delays (40 : Nat) cat (((4 : Nat) : ℚ) / 4 / (40 : Nat)) :=
  WithPlan.optimum (withPlan (by simp [shipped]) read_base net_ok base_sheet (tableOK rfl) net_loop
      real1Plan_sections real1Plan_ok) (by norm_num) real1_cost real1_arcs real1_choices real1_times real1_cases cat

theorem real2_optimum (cat : Cat) :
    Optimum ⟨net, base, "16:00"⟩ real2Delays (40 : Nat) cat (((24 : Nat) : ℚ) / 4 / (40 : Nat)) :=
  WithPlan.optimum (withPlan (by simp [shipped]) read_base net_ok base_sheet (tableOK rfl) net_loop
      real2Plan_sections real2Plan_ok) (by norm_num) real2_cost real2_arcs real2_choices real2_times real2_cases cat

theorem real3_optimum (cat : Cat) :
    Optimum ⟨net, base, "16:00"⟩ real3Delays (40 : Nat) cat (((30 : Nat) : ℚ) / 4 / (40 : Nat)) :=
  WithPlan.optimum (withPlan (by simp [shipped]) read_base net_ok base_sheet (tableOK rfl) net_loop
      real3Plan_sections real3Plan_ok) (by norm_num) real3_cost real3_arcs real3_choices real3_times real3_cases cat

theorem real4_optimum (cat : Cat) :
    Optimum ⟨netGt, gt, "16:00"⟩ real4Delays (40 : Nat) cat (((313 : Nat) : ℚ) / 4 / (40 : Nat)) :=
  WithPlan.optimum (withPlan (by simp [shipped]) read_gt netGt_ok gt_sheet (tableOK rfl) netGt_loop
      real4Plan_sections real4Plan_ok) (by norm_num) real4_cost real4_arcs real4_choices real4_times real4_cases cat

theorem real5_optimum (cat : Cat) :
    Optimum ⟨netGt, gt, "16:00"⟩ real5Delays (40 : Nat) cat (((459 : Nat) : ℚ) / 4 / (40 : Nat)) :=
  WithPlan.optimum (withPlan (by simp [shipped]) read_gt netGt_ok gt_sheet (tableOK rfl) netGt_loop
      real5Plan_sections real5Plan_ok) (by norm_num) real5_cost real5_arcs real5_choices real5_times real5_cases cat

theorem real6_optimum (cat : Cat) :
    Optimum ⟨net, one, "16:00"⟩ real6Delays (40 : Nat) cat (((365 : Nat) : ℚ) / 4 / (40 : Nat)) :=
  WithPlan.optimum (withPlan (by simp [shipped]) read_one net_ok one_sheet (tableOK rfl) net_loop
      real6Plan_sections real6Plan_ok) (by norm_num) real6_cost real6_arcs real6_choices real6_times real6_cases cat

theorem ko1n1_optimum (cat : Cat) :
    Optimum ⟨netKo, ko1All, "14:00"⟩ ko1n1Delays (40 : Nat) cat (((4 : Nat) : ℚ) / 4 / (40 : Nat)) :=
  WithPlan.optimum (withPlan (by simp [shipped]) read_ko1 netKo_ok ko1_sheet (tableOK rfl) netKo_loop
      ko1n1Plan_sections ko1n1Plan_ok) (by norm_num) ko1n1_cost ko1n1_arcs ko1n1_choices ko1n1_times ko1n1_cases cat

theorem ko1n2_optimum (cat : Cat) :
    Optimum ⟨netKo, ko1All, "14:00"⟩ ko1n2Delays (40 : Nat) cat (((12 : Nat) : ℚ) / 4 / (40 : Nat)) :=
  WithPlan.optimum (withPlan (by simp [shipped]) read_ko1 netKo_ok ko1_sheet (tableOK rfl) netKo_loop
      ko1n2Plan_sections ko1n2Plan_ok) (by norm_num) ko1n2_cost ko1n2_arcs ko1n2_choices ko1n2_times ko1n2_cases cat

theorem ko1n3_optimum (cat : Cat) :
    Optimum ⟨netKo, ko1All, "14:00"⟩ ko1n3Delays (40 : Nat) cat (((84 : Nat) : ℚ) / 4 / (40 : Nat)) :=
  WithPlan.optimum (withPlan (by simp [shipped]) read_ko1 netKo_ok ko1_sheet (tableOK rfl) netKo_loop
      ko1n3Plan_sections ko1n3Plan_ok) (by norm_num) ko1n3_cost ko1n3_arcs ko1n3_choices ko1n3_times ko1n3_cases cat

theorem ko1n4_optimum (cat : Cat) :
    Optimum ⟨netKo, ko1All, "14:00"⟩ ko1n4Delays (40 : Nat) cat (((12 : Nat) : ℚ) / 4 / (40 : Nat)) :=
  WithPlan.optimum (withPlan (by simp [shipped]) read_ko1 netKo_ok ko1_sheet (tableOK rfl) netKo_loop
      ko1n4Plan_sections ko1n4Plan_ok) (by norm_num) ko1n4_cost ko1n4_arcs ko1n4_choices ko1n4_times ko1n4_cases cat

theorem ko1n5_optimum (cat : Cat) :
    Optimum ⟨netKo, ko1All, "14:00"⟩ ko1n5Delays (40 : Nat) cat (((142 : Nat) : ℚ) / 4 / (40 : Nat)) :=
  WithPlan.optimum (withPlan (by simp [shipped]) read_ko1 netKo_ok ko1_sheet (tableOK rfl) netKo_loop
      ko1n5Plan_sections ko1n5Plan_ok) (by norm_num) ko1n5_cost ko1n5_arcs ko1n5_choices ko1n5_times ko1n5_cases cat

theorem ko1n6_optimum (cat : Cat) :
    Optimum ⟨netKo, ko1All, "14:00"⟩ ko1n6Delays (40 : Nat) cat (((228 : Nat) : ℚ) / 4 / (40 : Nat)) :=
  WithPlan.optimum (withPlan (by simp [shipped]) read_ko1 netKo_ok ko1_sheet (tableOK rfl) netKo_loop
      ko1n6Plan_sections ko1n6Plan_ok) (by norm_num) ko1n6_cost ko1n6_arcs ko1n6_choices ko1n6_times ko1n6_cases cat

theorem ko1n7_optimum (cat : Cat) :
    Optimum ⟨netKo, ko1All, "14:00"⟩ ko1n7Delays (40 : Nat) cat (((162 : Nat) : ℚ) / 4 / (40 : Nat)) :=
  WithPlan.optimum (withPlan (by simp [shipped]) read_ko1 netKo_ok ko1_sheet (tableOK rfl) netKo_loop
      ko1n7Plan_sections ko1n7Plan_ok) (by norm_num) ko1n7_cost ko1n7_arcs ko1n7_choices ko1n7_times ko1n7_cases cat

theorem ko1n8_optimum (cat : Cat) :
    Optimum ⟨netKo, ko1All, "14:00"⟩ ko1n8Delays (40 : Nat) cat (((342 : Nat) : ℚ) / 4 / (40 : Nat)) :=
  WithPlan.optimum (withPlan (by simp [shipped]) read_ko1 netKo_ok ko1_sheet (tableOK rfl) netKo_loop
      ko1n8Plan_sections ko1n8Plan_ok) (by norm_num) ko1n8_cost ko1n8_arcs ko1n8_choices ko1n8_times ko1n8_cases cat

theorem ko1n9_optimum (cat : Cat) :
    Optimum ⟨netKo, ko1All, "14:00"⟩ ko1n9Delays (40 : Nat) cat (((242 : Nat) : ℚ) / 4 / (40 : Nat)) :=
  WithPlan.optimum (withPlan (by simp [shipped]) read_ko1 netKo_ok ko1_sheet (tableOK rfl) netKo_loop
      ko1n9Plan_sections ko1n9Plan_ok) (by norm_num) ko1n9_cost ko1n9_arcs ko1n9_choices ko1n9_times ko1n9_cases cat

theorem ko1n10_optimum (cat : Cat) :
    Optimum ⟨netKo, ko1All, "14:00"⟩ ko1n10Delays (40 : Nat) cat (((56 : Nat) : ℚ) / 4 / (40 : Nat)) :=
  WithPlan.optimum (withPlan (by simp [shipped]) read_ko1 netKo_ok ko1_sheet (tableOK rfl) netKo_loop
      ko1n10Plan_sections ko1n10Plan_ok) (by norm_num) ko1n10_cost ko1n10_arcs ko1n10_choices ko1n10_times ko1n10_cases cat

theorem ko1n11_optimum (cat : Cat) :
    Optimum ⟨netKo, ko1All, "14:00"⟩ ko1n11Delays (40 : Nat) cat (((182 : Nat) : ℚ) / 4 / (40 : Nat)) :=
  WithPlan.optimum (withPlan (by simp [shipped]) read_ko1 netKo_ok ko1_sheet (tableOK rfl) netKo_loop
      ko1n11Plan_sections ko1n11Plan_ok) (by norm_num) ko1n11_cost ko1n11_arcs ko1n11_choices ko1n11_times ko1n11_cases cat

theorem ko3n1_optimum (cat : Cat) :
    Optimum ⟨netKoR, ko3All, "14:00"⟩ ko3n1Delays (40 : Nat) cat (((12 : Nat) : ℚ) / 4 / (40 : Nat)) :=
  WithPlan.optimum (withPlan (by simp [shipped]) read_ko3 netKoR_ok ko3_sheet (tableOK rfl) netKoR_loop
      ko3n1Plan_sections ko3n1Plan_ok) (by norm_num) ko3n1_cost ko3n1_arcs ko3n1_choices ko3n1_times ko3n1_cases cat

theorem ko3n2_optimum (cat : Cat) :
    Optimum ⟨netKoR, ko3All, "14:00"⟩ ko3n2Delays (40 : Nat) cat (((48 : Nat) : ℚ) / 4 / (40 : Nat)) :=
  WithPlan.optimum (withPlan (by simp [shipped]) read_ko3 netKoR_ok ko3_sheet (tableOK rfl) netKoR_loop
      ko3n2Plan_sections ko3n2Plan_ok) (by norm_num) ko3n2_cost ko3n2_arcs ko3n2_choices ko3n2_times ko3n2_cases cat

theorem ko3n3_optimum (cat : Cat) :
    Optimum ⟨netKoR, ko3All, "14:00"⟩ ko3n3Delays (40 : Nat) cat (((64 : Nat) : ℚ) / 4 / (40 : Nat)) :=
  WithPlan.optimum (withPlan (by simp [shipped]) read_ko3 netKoR_ok ko3_sheet (tableOK rfl) netKoR_loop
      ko3n3Plan_sections ko3n3Plan_ok) (by norm_num) ko3n3_cost ko3n3_arcs ko3n3_choices ko3n3_times ko3n3_cases cat

theorem ko3n4_optimum (cat : Cat) :
    Optimum ⟨netKoR, ko3All, "14:00"⟩ ko3n4Delays (40 : Nat) cat (((56 : Nat) : ℚ) / 4 / (40 : Nat)) :=
  WithPlan.optimum (withPlan (by simp [shipped]) read_ko3 netKoR_ok ko3_sheet (tableOK rfl) netKoR_loop
      ko3n4Plan_sections ko3n4Plan_ok) (by norm_num) ko3n4_cost ko3n4_arcs ko3n4_choices ko3n4_times ko3n4_cases cat

theorem ko3n5_optimum (cat : Cat) :
    Optimum ⟨netKoR, ko3All, "14:00"⟩ ko3n5Delays (40 : Nat) cat (((166 : Nat) : ℚ) / 4 / (40 : Nat)) :=
  WithPlan.optimum (withPlan (by simp [shipped]) read_ko3 netKoR_ok ko3_sheet (tableOK rfl) netKoR_loop
      ko3n5Plan_sections ko3n5Plan_ok) (by norm_num) ko3n5_cost ko3n5_arcs ko3n5_choices ko3n5_times ko3n5_cases cat

theorem ko3n6_optimum (cat : Cat) :
    Optimum ⟨netKoR, ko3All, "14:00"⟩ ko3n6Delays (40 : Nat) cat (((176 : Nat) : ℚ) / 4 / (40 : Nat)) :=
  WithPlan.optimum (withPlan (by simp [shipped]) read_ko3 netKoR_ok ko3_sheet (tableOK rfl) netKoR_loop
      ko3n6Plan_sections ko3n6Plan_ok) (by norm_num) ko3n6_cost ko3n6_arcs ko3n6_choices ko3n6_times ko3n6_cases cat

theorem ko3n7_optimum (cat : Cat) :
    Optimum ⟨netKoR, ko3All, "14:00"⟩ ko3n7Delays (40 : Nat) cat (((176 : Nat) : ℚ) / 4 / (40 : Nat)) :=
  WithPlan.optimum (withPlan (by simp [shipped]) read_ko3 netKoR_ok ko3_sheet (tableOK rfl) netKoR_loop
      ko3n7Plan_sections ko3n7Plan_ok) (by norm_num) ko3n7_cost ko3n7_arcs ko3n7_choices ko3n7_times ko3n7_cases cat

theorem ko3n8_optimum (cat : Cat) :
    Optimum ⟨netKoR, ko3All, "14:00"⟩ ko3n8Delays (40 : Nat) cat (((168 : Nat) : ℚ) / 4 / (40 : Nat)) :=
  WithPlan.optimum (withPlan (by simp [shipped]) read_ko3 netKoR_ok ko3_sheet (tableOK rfl) netKoR_loop
      ko3n8Plan_sections ko3n8Plan_ok) (by norm_num) ko3n8_cost ko3n8_arcs ko3n8_choices ko3n8_times ko3n8_cases cat

theorem ko3n9_optimum (cat : Cat) :
    Optimum ⟨netKoR, ko3All, "14:00"⟩ ko3n9Delays (40 : Nat) cat (((208 : Nat) : ℚ) / 4 / (40 : Nat)) :=
  WithPlan.optimum (withPlan (by simp [shipped]) read_ko3 netKoR_ok ko3_sheet (tableOK rfl) netKoR_loop
      ko3n9Plan_sections ko3n9Plan_ok) (by norm_num) ko3n9_cost ko3n9_arcs ko3n9_choices ko3n9_times ko3n9_cases cat

theorem ko3n10_optimum (cat : Cat) :
    Optimum ⟨netKoR, ko3All, "14:00"⟩ ko3n10Delays (40 : Nat) cat (((256 : Nat) : ℚ) / 4 / (40 : Nat)) :=
  WithPlan.optimum (withPlan (by simp [shipped]) read_ko3 netKoR_ok ko3_sheet (tableOK rfl) netKoR_loop
      ko3n10Plan_sections ko3n10Plan_ok) (by norm_num) ko3n10_cost ko3n10_arcs ko3n10_choices ko3n10_times ko3n10_cases cat

theorem ko3n11_optimum (cat : Cat) :
    Optimum ⟨netKoR, ko3All, "14:00"⟩ ko3n11Delays (40 : Nat) cat (((222 : Nat) : ℚ) / 4 / (40 : Nat)) :=
  WithPlan.optimum (withPlan (by simp [shipped]) read_ko3 netKoR_ok ko3_sheet (tableOK rfl) netKoR_loop
      ko3n11Plan_sections ko3n11Plan_ok) (by norm_num) ko3n11_cost ko3n11_arcs ko3n11_choices ko3n11_times ko3n11_cases cat

/-- The cases 0 to 6 of `/repo/solve_real_problem.py`: the sheet, the given delays, and the minutes of
delay that count in the best plan. The numbers of minutes are those of the timetables that the program
recorded with the solver CBC
(`/repo/solutions_quantum/data4diagrams/PULP_CBC_CMD_case{0..6}_Integer.pkl`). (lines 99-175) -/
def realCases : List (Shipped × List (Int × ℚ) × ℚ) := [
    (⟨net, base, "16:00"⟩, [], 0),
    (⟨net, base, "16:00"⟩, [(14006, 12)], 1),
    (⟨net, base, "16:00"⟩, [(94766, 15), (40518, 12), (41004, 13), (44862, 6), (4120, 21)], 6),
    (⟨net, base, "16:00"⟩, [(94766, 30), (26013, 12), (5312, 18), (40518, 5), (34319, 30),
    (14006, 23), (40150, 3), (41004, 21), (45101, 35), (4500, 10), (49317, 25), (64359, 7),
    (44862, 5), (73000, 16)], 15 / 2),
    (⟨netGt, gt, "16:00"⟩, [], 313 / 4),
    (⟨netGt, gt, "16:00"⟩, [(94766, 30), (26013, 12), (5312, 18), (40518, 5), (34319, 30),
    (14006, 23), (40150, 3), (41004, 21), (45101, 35), (4500, 10), (49317, 25), (64359, 7),
    (44862, 5), (73000, 16)], 459 / 4),
    (⟨net, one, "16:00"⟩, [(94766, 30), (26013, 12), (5312, 18), (40518, 5), (34319, 30),
    (14006, 23), (40150, 3), (41004, 21), (45101, 35), (4500, 10), (49317, 25), (64359, 7),
    (44862, 5), (73000, 16)], 365 / 4)]

/-- The twelve disturbances for the first sheet of `/repo/solve_KO_GLC_problems.py`, with the minutes of
delay that count in the best plan. The program recorded these numbers, with the solvers CPLEX and CBC, in
`/repo/results_KO_GLC/results_{CPLEX,PULP_CBC}_CMD__1_Integer.pkl`. (lines 103-115) -/
def ko1Cases : List (List (Int × ℚ) × ℚ) := [
    ([], 0),
    ([(4602, 2)], 1),
    ([(6401, 3), (4604, 13)], 3),
    ([(1, 2), (3, 2), (5, 7)], 21),
    ([(2, 2), (4, 2), (6405, 3), (6407, 3)], 3),
    ([(1, 5), (2, 3), (3, 7), (4, 2), (5, 1), (6401, 2)], 71 / 2),
    ([(3, 7), (4, 2), (5, 1), (23, 6), (1, 6), (6407, 2), (101, 4), (4602, 7)], 57),
    ([(1, 5), (11, 3), (21, 3), (25, 2), (2, 4), (4, 6), (6, 6), (8, 3), (10, 3), (22, 6),
    (24, 1)], 81 / 2),
    ([(1, 3), (2, 5), (3, 7), (4, 25), (5, 8), (6, 12), (7, 17), (23, 4), (25, 3), (24, 8),
    (10, 4), (6401, 3), (6403, 7), (101, 8)], 171 / 2),
    ([(2, 3), (4602, 1), (4, 10), (102, 2), (6, 15), (8, 7), (4604, 4), (10, 1), (12, 7), (1, 10),
    (101, 8), (3, 2), (6401, 6), (5, 15), (7, 1), (103, 30), (9, 7), (6403, 8)], 121 / 2),
    (ko1.map fun c => (c.number, ((c.number % 3 : Int) : ℚ)), 14),
    (ko1.map fun c => (c.number, ((c.number % 10 : Int) : ℚ)), 91 / 2)]

/-- The twelve disturbances for the third sheet, likewise. (lines 103-127) -/
def ko3Cases : List (List (Int × ℚ) × ℚ) := [
    ([], 0),
    ([(2, 18)], 3),
    ([(2, 36), (4602, 20)], 12),
    ([(101, 18), (1, 29), (3, 25)], 16),
    ([(101, 18), (1, 29), (3, 25), (5, 15), (2, 18)], 14),
    ([(101, 18), (1, 29), (3, 25), (5, 15), (2, 36), (4602, 20), (9, 12)], 83 / 2),
    ([(101, 18), (1, 29), (3, 25), (5, 15), (2, 36), (4602, 20), (9, 12), (103, 15), (10, 50),
    (4606, 30)], 44),
    ([(2, 50), (4602, 32), (4, 10), (102, 5), (1, 12), (101, 10)], 44),
    ([(2, 90), (4602, 72), (4, 72), (102, 45), (4604, 10), (101, 47), (6401, 35), (3, 20)], 42),
    ([(2, 90), (4602, 72), (4, 72), (102, 45), (4604, 10), (101, 47), (6401, 35), (6403, 20),
    (5, 25), (103, 30), (3, 60), (10, 25)], 52),
    ([(1, 29), (2, 36), (4602, 20), (9, 12), (4606, 30), (102, 45), (101, 47), (6401, 35),
    (6403, 20), (5, 25), (103, 30), (3, 60), (4604, 10), (10, 25)], 64),
    ([(2, 92), (4602, 70), (4, 72), (102, 46), (101, 45), (6401, 33), (6403, 20), (5, 25),
    (103, 28), (3, 59), (4604, 12), (10, 25)], 111 / 2)]

/-- **C79**, the sheets of `solve_real_problem.py`: with the delays of the script and its `d_max` the best
value of the objective is as recorded. -/
theorem C79_real : ∀ c ∈ realCases, ∀ cat, Optimum c.1 c.2.1 40 cat (c.2.2 / 40) := by
  intro c hc cat
  simp only [realCases, List.mem_cons, List.not_mem_nil, or_false] at hc
  rcases hc with rfl | rfl | rfl | rfl | rfl | rfl | rfl
  · have := plan_base.optimum_zero (dmax := 40) (by norm_num) (by norm_num) (by decide +kernel) cat
    rwa [zero_div]
  · exact_mod_cast Optimum.as real1_optimum rfl (v' := 1) (by norm_num) cat
  · exact_mod_cast Optimum.as real2_optimum rfl (v' := 6) (by norm_num) cat
  · exact_mod_cast Optimum.as real3_optimum rfl (v' := 15 / 2) (by norm_num) cat
  · exact_mod_cast Optimum.as real4_optimum rfl (v' := 313 / 4) (by norm_num) cat
  · exact_mod_cast Optimum.as real5_optimum rfl (v' := 459 / 4) (by norm_num) cat
  · exact_mod_cast Optimum.as real6_optimum rfl (v' := 365 / 4) (by norm_num) cat

/-- **C79**, the first sheet of `solve_KO_GLC_problems.py` -/
theorem C79_ko1 : ∀ c ∈ ko1Cases, ∀ cat,
    Optimum ⟨netKo, ko1All, "14:00"⟩ c.1 40 cat (c.2 / 40) := by
  intro c hc cat
  simp only [ko1Cases, List.mem_cons, List.not_mem_nil, or_false] at hc
  rcases hc with rfl | rfl | rfl | rfl | rfl | rfl | rfl | rfl | rfl | rfl | rfl | rfl
  · have := plan_ko1.optimum_zero (dmax := 40) (by norm_num) (by norm_num) (by decide +kernel) cat
    rwa [zero_div]
  · exact_mod_cast Optimum.as ko1n1_optimum rfl (v' := 1) (by norm_num) cat
  · exact_mod_cast Optimum.as ko1n2_optimum rfl (v' := 3) (by norm_num) cat
  · exact_mod_cast Optimum.as ko1n3_optimum rfl (v' := 21) (by norm_num) cat
  · exact_mod_cast Optimum.as ko1n4_optimum rfl (v' := 3) (by norm_num) cat
  · exact_mod_cast Optimum.as ko1n5_optimum rfl (v' := 71 / 2) (by norm_num) cat
  · exact_mod_cast Optimum.as ko1n6_optimum rfl (v' := 57) (by norm_num) cat
  · exact_mod_cast Optimum.as ko1n7_optimum rfl (v' := 81 / 2) (by norm_num) cat
  · exact_mod_cast Optimum.as ko1n8_optimum rfl (v' := 171 / 2) (by norm_num) cat
  · exact_mod_cast Optimum.as ko1n9_optimum rfl (v' := 121 / 2) (by norm_num) cat
  · exact_mod_cast Optimum.as ko1n10_optimum rfl (v' := 14) (by norm_num) cat
  · exact_mod_cast Optimum.as ko1n11_optimum rfl (v' := 91 / 2) (by norm_num) cat

/-- **C79**, the third sheet of `solve_KO_GLC_problems.py` -/
theorem C79_ko3 : ∀ c ∈ ko3Cases, ∀ cat,
    Optimum ⟨netKoR, ko3All, "14:00"⟩ c.1 40 cat (c.2 / 40) := by
  intro c hc cat
  simp only [ko3Cases, List.mem_cons, List.not_mem_nil, or_false] at hc
  rcases hc with rfl | rfl | rfl | rfl | rfl | rfl | rfl | rfl | rfl | rfl | rfl | rfl
  · have := plan_ko3.optimum_zero (dmax := 40) (by norm_num) (by norm_num) (by decide +kernel) cat
    rwa [zero_div]
  · exact_mod_cast Optimum.as ko3n1_optimum rfl (v' := 3) (by norm_num) cat
  · exact_mod_cast Optimum.as ko3n2_optimum rfl (v' := 12) (by norm_num) cat
  · exact_mod_cast Optimum.as ko3n3_optimum rfl (v' := 16) (by norm_num) cat
  · exact_mod_cast Optimum.as ko3n4_optimum rfl (v' := 14) (by norm_num) cat
  · exact_mod_cast Optimum.as ko3n5_optimum rfl (v' := 83 / 2) (by norm_num) cat
  · exact_mod_cast Optimum.as ko3n6_optimum rfl (v' := 44) (by norm_num) cat
  · exact_mod_cast Optimum.as ko3n7_optimum rfl (v' := 44) (by norm_num) cat
  · exact_mod_cast Optimum.as ko3n8_optimum rfl (v' := 42) (by norm_num) cat
  · exact_mod_cast Optimum.as ko3n9_optimum rfl (v' := 52) (by norm_num) cat
  · exact_mod_cast Optimum.as ko3n10_optimum rfl (v' := 64) (by norm_num) cat
  · exact_mod_cast Optimum.as ko3n11_optimum rfl (v' := 111 / 2) (by norm_num) cat

/-- The recorded results of the hybrid solver for the third sheet, in quarters of minutes
(`/repo/results_KO_GLC/results{5,20}__cqm_3_Integer.pkl`): none is better than the optimum; with 5 seconds
five of the twelve are optimal, with 20 seconds seven. -/
example : let opt := ko3Cases.map fun c => 4 * c.2
    let five : List ℚ := [0, 12, 48, 64, 64, 194, 182, 176, 252, 252, 286, 238]
    let twenty : List ℚ := [0, 12, 48, 64, 56, 172, 176, 176, 180, 236, 258, 258]
    (∀ x ∈ opt.zip five, x.1 ≤ x.2) ∧ (∀ x ∈ opt.zip twenty, x.1 ≤ x.2) ∧
    ((opt.zip five).filter fun x => x.1 = x.2).length = 5 ∧
    ((opt.zip twenty).filter fun x => x.1 = x.2).length = 7 := by decide +kernel

end Real

end Verif
