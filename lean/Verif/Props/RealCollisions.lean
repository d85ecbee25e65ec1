import Verif.Proofs.PlanHits
import Verif.Props.RealExceptions
import Verif.Props.RealOptimum
import Verif.Real.PlanHitGt
import Verif.Real.PlanHitOneGt

/-!
# C68 is false for the sheets of `solve_real_problem.py`

The code leaves five trains out of the rules for the tracks of `KO` (`C68_exceptions`). Here are solutions
of the four problems, also optimal ones, in which one of these trains is on the same track of `KO` as
another train, at the same time.
-/

namespace Verif

namespace Real

/-- There is a solution of the problem that the scripts make of the sheet `d` in which `t` stands in
station `x` in block `y` from `a` to `e`, and `t'` from `a'` to `e'`, and these times overlap. The value of
the objective is `v`. -/
def Collision (d : Shipped) (delays : List (Int × ℚ)) (dmax : ℚ) (cat : Cat) (v : ℚ) (t t' : Int)
    (x y : String) (a e a' e' : ℚ) : Prop :=
  ∃ td ts tt b σ, buildTimetables d.sheet d.net.stationTable d.net.pathTable = .ok td ∧
    makeInput td d.net.stationTable d.net.pathTable d.start 1 delays = .ok (ts, tt) ∧
    buildProblem ts tt dmax cat = .ok b ∧ Feasible b σ ∧ b.prob.objective.eval σ = v ∧
    Collide td d.net.stationTable (Departs ts tt b.dv σ) t t' x y a e a' e'

variable {d : Shipped} {delays : List (Int × ℚ)} {D : Int} {sp : CodedNet.Special} {P : CodedNet.Plan}

theorem WithPlan.collision (h : WithPlan d delays D sp P) {dmax : ℚ} (h0 : 0 < dmax) (hD : D ≤ dmax)
    {B : Nat} (hB : d.net.costOK P B = true) {k0 k k0' k' i y : Nat} {w e w' e' : Int}
    (hh : d.net.hits P k0 k k0' k' i y w e w' e' = true) (cat : Cat) :
    Collision d delays dmax cat ((B : ℚ) / 4 / dmax) (CodedNet.numberOf P k) (CodedNet.numberOf P k')
      (d.net.nameAt i) (nameOf d.net.names y) w e w' e' := by
  obtain ⟨good, td, h1, hm, K, Ty⟩ := h.planned
  obtain ⟨td', h1', h2⟩ := C64_shipped d h.mem
  obtain ⟨td'', h1'', h3⟩ := C71_shipped d h.mem
  rw [h1] at h1' h1''
  cases h1'
  cases h1''
  obtain ⟨ts, tt, b, hi, hb⟩ := h2 1 delays dmax cat h0.ne'
  have E := CodedNet.hasEarliest K.data hi
  obtain ⟨σ, hσ, hd⟩ := ((h3 1 delays dmax cat ts tt b h0 hi hb).1
    (CodedNet.tablePlan d.net P).dep).2 ⟨_, _, _, (CodedNet.Planned.rules K h.against).mono hD⟩
  obtain ⟨ds, hds, hsum⟩ := K.cost E Ty hB
  refine ⟨td, ts, tt, b, σ, h1, hi, hb, hσ, ?_, CodedNet.hits_spec K hd hh⟩
  rw [C72_objective K.data hi hb hd hds, ← hsum]
  ring

theorem Collision.not_clear {dmax : ℚ} {cat : Cat} {v : ℚ} {t t' : Int} {x y : String} {a e a' e' : ℚ}
    (h : Collision d delays dmax cat v t t' x y a e a' e') : ¬ C68_statement d := by
  rintro ⟨td, h1, hc⟩
  obtain ⟨td', ts, tt, b, σ, h1', hi, hb, hσ, -, C⟩ := h
  rw [h1] at h1'
  cases h1'
  obtain ⟨rows, q, ht, hq, hx, hy⟩ := C.block
  obtain ⟨rows', q', ht', hq', hx', hy'⟩ := C.block'
  rcases (hc 1 delays dmax cat ts tt b σ hi hb hσ).tracks t t' x rows rows' q q' a a' e e' C.ne ht ht' hq
    hq' hx hx' (hy.trans hy'.symm) C.stands C.stands' with h | h
  · exact absurd C.before' (not_lt.2 h)
  · exact absurd C.before (not_lt.2 h)

/-- a block of `KO` -/
def koTwo : String := "\"KO\", \"ST\", 2, \"(3)\""

/-- another block of `KO` -/
def koEight : String := "\"KO\", \"ST\", 8, \"(4)\""

theorem WithPlan.collides (h : WithPlan d delays D sp P) {B : Nat} {k0 k k0' k' i y : Nat}
    {w e w' e' : Int} {v : ℚ} {t t' : Int} {x z : String} (hD : D ≤ 40) (hB : d.net.costOK P B = true)
    (hh : d.net.hits P k0 k k0' k' i y w e w' e' = true) (hv : (B : ℚ) / 4 = v)
    (ht : CodedNet.numberOf P k = t) (ht' : CodedNet.numberOf P k' = t') (hx : d.net.nameAt i = x)
    (hz : nameOf d.net.names y = z) (cat : Cat) :
    Collision d delays 40 cat (v / 40) t t' x z w e w' e' := by
  subst hv ht ht' hx hz
  exact h.collision (by norm_num) (by exact_mod_cast hD) hB hh cat

/-- no delays; with the smallest value of the objective (`C79_real`) -/
theorem hit_base (cat : Cat) : Collision ⟨net, base, "16:00"⟩ [] 40 cat (0 / 40) 541019 4500 "KO" koTwo
    27 32 26 35 := by
  exact_mod_cast plan_base.collides (B := 0) (k0 := 14) (k := 15) (k0' := 17) (k' := 17) (i := 1)
    (y := 11) (w := 27) (e := 32) (w' := 26) (e' := 35) (by norm_num) (by decide +kernel)
    (by decide +kernel) (by norm_num) rfl rfl rfl rfl cat

/-- the third case of the script; with the smallest value of the objective (`C79_real`) -/
theorem hit_real2 (cat : Cat) : Collision ⟨net, base, "16:00"⟩
    [(94766, 15), (40518, 12), (41004, 13), (44862, 6), (4120, 21)] 40 cat (6 / 40) 94766 343199 "KO" koEight
    16 19 13 18 := by
  exact_mod_cast (withPlan (by simp [shipped]) read_base net_ok base_sheet (tableOK rfl) net_loop
    real2Plan_sections real2Plan_ok).collides (B := 24) (k0 := 0) (k := 0) (k0' := 6) (k' := 7) (i := 1)
    (y := 15) (w := 16) (e := 19) (w' := 13) (e' := 18) (by norm_num) (by decide +kernel)
    (by decide +kernel) (by norm_num) rfl rfl rfl rfl cat

/-- no delays; with the smallest value of the objective (`C79_real`) -/
theorem hit_gt (cat : Cat) : Collision ⟨netGt, gt, "16:00"⟩ [] 40 cat (313 / 4 / 40) 541019 4500 "KO"
    koTwo 27 37 36 39 := by
  exact_mod_cast (withPlan (by simp [shipped]) read_gt netGt_ok gt_sheet (tableOK rfl) netGt_loop
    hitgtPlan_sections hitgtPlan_ok).collides (B := 313) (k0 := 14) (k := 15) (k0' := 17) (k' := 17)
    (i := 1) (y := 11) (w := 27) (e := 37) (w' := 36) (e' := 39) (by norm_num) (by decide +kernel)
    (by decide +kernel) (by norm_num) rfl rfl rfl rfl cat

/-- the sixth case of the script; with the smallest value of the objective (`C79_real`) -/
theorem hit_real5 (cat : Cat) : Collision ⟨netGt, gt, "16:00"⟩ [(94766, 30), (26013, 12), (5312, 18),
    (40518, 5), (34319, 30), (14006, 23), (40150, 3), (41004, 21), (45101, 35), (4500, 10), (49317, 25),
    (64359, 7), (44862, 5), (73000, 16)] 40 cat (459 / 4 / 40) 44862 64350 "KO" koEight 52 55 53 56 := by
  exact_mod_cast (withPlan (by simp [shipped]) read_gt netGt_ok gt_sheet (tableOK rfl) netGt_loop
    real5Plan_sections real5Plan_ok).collides (B := 459) (k0 := 22) (k := 22) (k0' := 20) (k' := 20)
    (i := 1) (y := 15) (w := 52) (e := 55) (w' := 53) (e' := 56) (by norm_num) (by decide +kernel)
    (by decide +kernel) (by norm_num) rfl rfl rfl rfl cat

/-- no delays -/
theorem hit_one (cat : Cat) : Collision ⟨net, one, "16:00"⟩ [] 40 cat (195 / 4 / 40) 541019 4500 "KO" koTwo
    29 34 26 36 := by
  exact_mod_cast plan_one.collides (B := 195) (k0 := 14) (k := 15) (k0' := 17) (k' := 17) (i := 1)
    (y := 11) (w := 29) (e := 34) (w' := 26) (e' := 36) (by norm_num) (by decide +kernel)
    (by decide +kernel) (by norm_num) rfl rfl rfl rfl cat

/-- no delays -/
theorem hit_onegt (cat : Cat) : Collision ⟨netGt, onegt, "16:00"⟩ [] 40 cat (103 / 40) 541019 4500 "KO"
    koTwo 27 42 41 44 := by
  exact_mod_cast (withPlan (by simp [shipped]) read_onegt netGt_ok onegt_sheet (tableOK rfl) netGt_loop
    hitonegtPlan_sections hitonegtPlan_ok).collides (B := 412) (k0 := 14) (k := 15) (k0' := 17) (k' := 17)
    (i := 1) (y := 11) (w := 27) (e := 42) (w' := 41) (e' := 44) (by norm_num) (by decide +kernel)
    (by decide +kernel) (by norm_num) rfl rfl rfl rfl cat

/-- **C68** is false for the four sheets of `solve_real_problem.py`. -/
theorem C68_false : ∀ d ∈ shipped.take 4, ¬ C68_statement d := by
  intro d hd
  have : d ∈ [(⟨net, base, "16:00"⟩ : Shipped), ⟨netGt, gt, "16:00"⟩, ⟨net, one, "16:00"⟩,
    ⟨netGt, onegt, "16:00"⟩] := hd
  simp only [List.mem_cons, List.not_mem_nil, or_false] at this
  rcases this with rfl | rfl | rfl | rfl
  · exact (hit_base .integer).not_clear
  · exact (hit_gt .integer).not_clear
  · exact (hit_one .integer).not_clear
  · exact (hit_onegt .integer).not_clear

/-- Also solutions with the smallest value of the objective, such as the solver may return, have two
trains on the same track: four of the cases of the script. -/
theorem C68_optimal_false : ∀ n ∈ [0, 2, 4, 5], ∃ c ∈ realCases[n]?, ∀ cat,
    Optimum c.1 c.2.1 40 cat (c.2.2 / 40) ∧
    ∃ t t' y a e a' e', Collision c.1 c.2.1 40 cat (c.2.2 / 40) t t' "KO" y a e a' e' := by
  intro n hn
  simp only [List.mem_cons, List.not_mem_nil, or_false] at hn
  rcases hn with rfl | rfl | rfl | rfl
  · exact ⟨_, rfl, fun cat => ⟨C79_real _ (by simp [realCases]) cat, _, _, _, _, _, _, _, hit_base cat⟩⟩
  · exact ⟨_, rfl, fun cat => ⟨C79_real _ (by simp [realCases]) cat, _, _, _, _, _, _, _, hit_real2 cat⟩⟩
  · exact ⟨_, rfl, fun cat => ⟨C79_real _ (by simp [realCases]) cat, _, _, _, _, _, _, _, hit_gt cat⟩⟩
  · exact ⟨_, rfl, fun cat => ⟨C79_real _ (by simp [realCases]) cat, _, _, _, _, _, _, _, hit_real5 cat⟩⟩

end Real

end Verif
