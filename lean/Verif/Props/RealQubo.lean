import Verif.Props.QuboGenerated
import Verif.Props.RealOptimum

/-!
# C81: the QUBOs of the shipped problems
-/

namespace Verif

namespace CodedNet

variable {N : CodedNet} {t1 : String} {late : ℚ} {delays : List (Int × ℚ)} {D D' : Int}
  {sp : Special} {P : Plan}

/-- no train of the plan is later than `D` -/
def within (D : Int) (P : Plan) : Bool :=
  P.all fun x => x.2.all fun a => !a.go || decide (a.dep ≤ a.early + D)

theorem PlanBase.narrow (h : N.PlanBase t1 delays D sp P) (hw : within D' P = true) :
    N.PlanBase t1 delays D' sp P := by
  refine ⟨h.special, fun x hx => ?_, h.stock, h.pairs⟩
  have hs := h.sections x hx
  unfold sectionOK at hs ⊢
  rw [Bool.and_eq_true, List.all_eq_true] at hs ⊢
  refine ⟨hs.1, fun y hy => ?_⟩
  have h2 := hs.2 y hy
  split
  · rfl
  · rename_i i hi
    rw [hi] at h2
    simp only at h2 ⊢
    split
    · rename_i ha
      rw [ha] at h2
      cases h2
    · rename_i a ha
      rw [ha] at h2
      simp only [rowOK, Bool.and_eq_true] at h2 ⊢
      obtain ⟨⟨⟨⟨⟨⟨q1, q2⟩, q3⟩, q4⟩, q5⟩, q6⟩, q7⟩ := h2
      refine ⟨⟨⟨⟨⟨⟨q1, q2⟩, q3⟩, q4⟩, ?_⟩, q6⟩, q7⟩
      have hm : a ∈ x.1.2 := List.mem_of_find?_eq_some ha
      unfold within at hw
      rw [List.all_eq_true] at hw
      have hw1 := hw x.1 (List.fst_mem_of_mem_zipIdx hx)
      rw [List.all_eq_true] at hw1
      have hw2 := hw1 a hm
      cases hg : a.go
      · simp
      · rw [hg] at q5 hw2
        simp only [Bool.not_true, Bool.false_or, Bool.and_eq_true, decide_eq_true_eq] at q5 hw2 ⊢
        exact ⟨q5.1, hw2⟩

end CodedNet

namespace Real

variable {d : Shipped} {delays : List (Int × ℚ)} {D : Int} {sp : CodedNet.Special} {P : CodedNet.Plan}

theorem WithPlan.narrow (h : WithPlan d delays D sp P) {D' : Int}
    (hw : CodedNet.within D' P = true) : WithPlan d delays D' sp P := by
  obtain ⟨hm, ha, good, td, h1, h2, K, Ty⟩ := h
  exact ⟨hm, ha, good, td, h1, h2, ⟨K.net, K.data, K.table, K.coded, K.ok.narrow hw⟩, Ty⟩

/-- the turnaround times in the shipped timetables are whole minutes -/
theorem kept_turnarounds : ∀ cs ∈ kept, ∀ c ∈ cs, ∀ r ∈ c.rows, ∀ x,
    r.2.turnaround = some x → x.den = 1 := by
  have h : (kept.all fun cs => cs.all fun c => c.rows.all fun r => match r.2.turnaround with
      | some x => x.den == 1
      | none => true) = true := by decide +kernel
  intro cs hcs c hc r hr x hx
  simp only [List.all_eq_true] at h
  have := h cs hcs c hc r hr
  rw [hx] at this
  simpa using this

theorem shipped_kept {d : Shipped} (hd : d ∈ shipped) : ∃ cs ∈ kept, ReadAs d cs := by
  have := shipped_read
  revert hd
  generalize shipped = ds at this
  generalize kept = ks at this
  intro hd
  induction this with
  | nil => cases hd
  | cons h1 _ ih =>
    rcases List.mem_cons.1 hd with rfl | hd
    · exact ⟨_, List.mem_cons_self, h1⟩
    · obtain ⟨c, hc, hr⟩ := ih hd
      exact ⟨c, List.mem_cons_of_mem _ hc, hr⟩

/-- what the loader makes of a shipped timetable -/
theorem shipped_data {d : Shipped} (hd : d ∈ shipped) {td : Trains}
    (h : buildTimetables d.sheet d.net.stationTable d.net.pathTable = .ok td) :
    GoodData td d.net.stationTable ∧ NamesClear td d.net.stationTable ∧ WholeTurnarounds td := by
  obtain ⟨cs, hcs, hr⟩ := shipped_kept hd
  obtain ⟨td', h1, h2⟩ := hr.1.load hr.2
  rw [h] at h1
  cases h1
  have L := hr.1.loaded h2
  refine ⟨hr.1.goodData L, hr.1.namesClear L, fun e he row hrow x hx => ?_⟩
  obtain ⟨s, hs, -, -, hrows⟩ := L.entry e he
  obtain ⟨c, hc, rfl⟩ := List.mem_map.1 hs
  have hm : row.toRawRow ∈ (d.net.sec c).rows := hrows ▸ List.mem_map_of_mem hrow
  obtain ⟨r, hr', e'⟩ := List.mem_map.1 hm
  have ht : r.2.turnaround = some x := by
    rw [← hx, ← e']; rfl
  have := kept_turnarounds cs hcs c hc r hr' x ht
  exact ⟨x.num, (Rat.den_eq_one_iff x).1 this |>.symm⟩

/-- A shipped problem has a QUBO whose bit strings of least energy are those of the best solutions. -/
def QuboSolves (d : Shipped) (delays : List (Int × ℚ)) (dmax : ℚ) (pdict : Dict String ℚ) (v : ℚ) :
    Prop :=
  ∃ td ts tt b q, buildTimetables d.sheet d.net.stationTable d.net.pathTable = .ok td ∧
    makeInput td d.net.stationTable d.net.pathTable d.start 1 delays = .ok (ts, tt) ∧
    buildProblem ts tt dmax .integer = .ok b ∧ convertToPyqubo b.prob = .ok q ∧ QuboExact b q pdict v

theorem WithPlan.qubo (h : WithPlan d delays D sp P) {dmax : ℚ} (hi : IsInt dmax) (h0 : 0 < D)
    (hD : D < dmax) (hd : ∀ x ∈ delays, IsInt x.2) {k i j y : Nat} {m : List Nat} {dp e : Int}
    (h1 : d.net.runsThen P k i = some (j, m, y, dp, e)) {v : ℚ}
    (ho : Optimum d delays dmax .integer v) {pdict : Dict String ℚ} (hp : PenaltiesAbove pdict v) :
    QuboSolves d delays dmax pdict v := by
  obtain ⟨good, td, b1, hm, K, Ty⟩ := h.planned
  obtain ⟨td', ts, tt, b, b1', hin, hb, ⟨σ, hσ, hv⟩, hmin⟩ := ho
  rw [b1] at b1'
  cases b1'
  have h0' : (0 : ℚ) < D := by exact_mod_cast h0
  obtain ⟨td'', ts', tt', b', σ', b1', hin', hb', hσ'⟩ := h.solvable h0' (le_refl _) .integer
  rw [b1] at b1'
  cases b1'
  rw [hin] at hin'
  cases hin'
  obtain ⟨G, hn, hw⟩ := shipped_data h.mem b1
  obtain ⟨rows, l, q, ht, hc, -, -, -, -, -, -, -, t, x, e1, e2, hl⟩ := CodedNet.runsThen_spec K
    (D := fun j s _ => ∃ t x, j = .int t ∧ s = .str x ∧ Leaves td t x)
    (fun t x hl => ⟨t, x, rfl, rfl, hl⟩) h1
  cases e1
  cases e2
  obtain ⟨q, hq, hall⟩ := C81_generated G hm hn hw hd hin hb hi h0'.le hD hb' hσ' ht hc hl
  exact ⟨td, ts, tt, b, q, b1, hin, hb, hq, hall pdict σ hσ (hv ▸ hp) v ⟨σ, hσ, hv⟩ hmin⟩

/-- the penalties of the scripts: `p` for every class of constraints, 1 for the objective
(`/repo/solve_KO_GLC_problems.py`, lines 132-145, `/repo/solve_real_problem.py`, lines 254-267) -/
def penalties (p : ℚ) : Dict String ℚ :=
  [("minimal_span", p), ("single_line", p), ("minimal_stay", p), ("track_occupation", p), ("switch", p),
    ("occupation", p), ("circulation", p), ("objective", 1)]

theorem penalties_above {p v : ℚ} (h0 : 0 < p) (h : v < p) : PenaltiesAbove (penalties p) v := by
  refine ⟨⟨1, rfl, by norm_num⟩, fun k hk => ⟨p, ?_, h0, ?_⟩⟩
  · simp only [penaltyClasses, List.mem_cons, List.not_mem_nil, or_false] at hk
    rcases hk with rfl | rfl | rfl | rfl | rfl | rfl <;> rfl
  · have : price (penalties p) "objective" = 1 := rfl
    rw [this, one_mul]; exact h

/-- The best plan of a disturbed timetable delays no train by 40 minutes; in it the first train leaves two
stations. -/
def InTime (d : Shipped) (delays : List (Int × ℚ)) : Prop :=
  (∀ x ∈ delays, IsInt x.2) ∧ ∃ sp P, WithPlan d delays 39 sp P ∧ (d.net.runsThen P 0 1).isSome = true

theorem InTime.qubo (h : InTime d delays) {v : ℚ} (ho : ∀ cat, Optimum d delays 40 cat (v / 40)) {p : ℚ}
    (h0 : 0 < p) (hp : v < 40 * p) : QuboSolves d delays 40 (penalties p) (v / 40) := by
  obtain ⟨hd, sp, P, hW, hr⟩ := h
  obtain ⟨⟨j, m, y, dp, e⟩, hr⟩ := Option.isSome_iff_exists.1 hr
  exact hW.qubo ⟨40, by norm_num⟩ (by norm_num) (by norm_num) hd hr (ho _)
    (penalties_above h0 (by linarith))

theorem wholeDelays {l : List (Int × ℚ)} (h : (l.all fun x => x.2.den == 1) = true) :
    ∀ x ∈ l, IsInt x.2 := by
  intro x hx
  rw [List.all_eq_true] at h
  exact ⟨x.2.num, ((Rat.den_eq_one_iff x.2).1 (by simpa using h x hx)).symm⟩

theorem base_inTime : InTime ⟨net, base, "16:00"⟩ [] :=
  ⟨wholeDelays (by decide +kernel), _, _, WithPlan.narrow plan_base
    (by decide +kernel), by decide +kernel⟩

theorem ko1_inTime : InTime ⟨netKo, ko1All, "14:00"⟩ [] :=
  ⟨wholeDelays (by decide +kernel), _, _, WithPlan.narrow plan_ko1
    (by decide +kernel), by decide +kernel⟩

theorem ko3_inTime : InTime ⟨netKoR, ko3All, "14:00"⟩ [] :=
  ⟨wholeDelays (by decide +kernel), _, _, WithPlan.narrow plan_ko3
    (by decide +kernel), by decide +kernel⟩

theorem real1_inTime : InTime ⟨net, base, "16:00"⟩ real1Delays :=
  ⟨wholeDelays (by decide +kernel), _, _, WithPlan.narrow (withPlan (by simp [shipped]) read_base net_ok base_sheet (tableOK rfl) net_loop
      real1Plan_sections real1Plan_ok)
    (by decide +kernel), by decide +kernel⟩

theorem real2_inTime : InTime ⟨net, base, "16:00"⟩ real2Delays :=
  ⟨wholeDelays (by decide +kernel), _, _, WithPlan.narrow (withPlan (by simp [shipped]) read_base net_ok base_sheet (tableOK rfl) net_loop
      real2Plan_sections real2Plan_ok)
    (by decide +kernel), by decide +kernel⟩

theorem real3_inTime : InTime ⟨net, base, "16:00"⟩ real3Delays :=
  ⟨wholeDelays (by decide +kernel), _, _, WithPlan.narrow (withPlan (by simp [shipped]) read_base net_ok base_sheet (tableOK rfl) net_loop
      real3Plan_sections real3Plan_ok)
    (by decide +kernel), by decide +kernel⟩

theorem real4_inTime : InTime ⟨netGt, gt, "16:00"⟩ real4Delays :=
  ⟨wholeDelays (by decide +kernel), _, _, WithPlan.narrow (withPlan (by simp [shipped]) read_gt netGt_ok gt_sheet (tableOK rfl) netGt_loop
      real4Plan_sections real4Plan_ok)
    (by decide +kernel), by decide +kernel⟩

theorem real5_inTime : InTime ⟨netGt, gt, "16:00"⟩ real5Delays :=
  ⟨wholeDelays (by decide +kernel), _, _, WithPlan.narrow (withPlan (by simp [shipped]) read_gt netGt_ok gt_sheet (tableOK rfl) netGt_loop
      real5Plan_sections real5Plan_ok)
    (by decide +kernel), by decide +kernel⟩

theorem real6_inTime : InTime ⟨net, one, "16:00"⟩ real6Delays :=
  ⟨wholeDelays (by decide +kernel), _, _, WithPlan.narrow (withPlan (by simp [shipped]) read_one net_ok one_sheet (tableOK rfl) net_loop
      real6Plan_sections real6Plan_ok)
    (by decide +kernel), by decide +kernel⟩

theorem ko1n1_inTime : InTime ⟨netKo, ko1All, "14:00"⟩ ko1n1Delays :=
  ⟨wholeDelays (by decide +kernel), _, _, WithPlan.narrow (withPlan (by simp [shipped]) read_ko1 netKo_ok ko1_sheet (tableOK rfl) netKo_loop
      ko1n1Plan_sections ko1n1Plan_ok)
    (by decide +kernel), by decide +kernel⟩

theorem ko1n2_inTime : InTime ⟨netKo, ko1All, "14:00"⟩ ko1n2Delays :=
  ⟨wholeDelays (by decide +kernel), _, _, WithPlan.narrow (withPlan (by simp [shipped]) read_ko1 netKo_ok ko1_sheet (tableOK rfl) netKo_loop
      ko1n2Plan_sections ko1n2Plan_ok)
    (by decide +kernel), by decide +kernel⟩

theorem ko1n3_inTime : InTime ⟨netKo, ko1All, "14:00"⟩ ko1n3Delays :=
  ⟨wholeDelays (by decide +kernel), _, _, WithPlan.narrow (withPlan (by simp [shipped]) read_ko1 netKo_ok ko1_sheet (tableOK rfl) netKo_loop
      ko1n3Plan_sections ko1n3Plan_ok)
    (by decide +kernel), by decide +kernel⟩

theorem ko1n4_inTime : InTime ⟨netKo, ko1All, "14:00"⟩ ko1n4Delays :=
  ⟨wholeDelays (by decide +kernel), _, _, WithPlan.narrow (withPlan (by simp [shipped]) read_ko1 netKo_ok ko1_sheet (tableOK rfl) netKo_loop
      ko1n4Plan_sections ko1n4Plan_ok)
    (by decide +kernel), by decide +kernel⟩

theorem ko1n5_inTime : InTime ⟨netKo, ko1All, "14:00"⟩ ko1n5Delays :=
  ⟨wholeDelays (by decide +kernel), _, _, WithPlan.narrow (withPlan (by simp [shipped]) read_ko1 netKo_ok ko1_sheet (tableOK rfl) netKo_loop
      ko1n5Plan_sections ko1n5Plan_ok)
    (by decide +kernel), by decide +kernel⟩

theorem ko1n6_inTime : InTime ⟨netKo, ko1All, "14:00"⟩ ko1n6Delays :=
  ⟨wholeDelays (by decide +kernel), _, _, WithPlan.narrow (withPlan (by simp [shipped]) read_ko1 netKo_ok ko1_sheet (tableOK rfl) netKo_loop
      ko1n6Plan_sections ko1n6Plan_ok)
    (by decide +kernel), by decide +kernel⟩

theorem ko1n7_inTime : InTime ⟨netKo, ko1All, "14:00"⟩ ko1n7Delays :=
  ⟨wholeDelays (by decide +kernel), _, _, WithPlan.narrow (withPlan (by simp [shipped]) read_ko1 netKo_ok ko1_sheet (tableOK rfl) netKo_loop
      ko1n7Plan_sections ko1n7Plan_ok)
    (by decide +kernel), by decide +kernel⟩

theorem ko1n8_inTime : InTime ⟨netKo, ko1All, "14:00"⟩ ko1n8Delays :=
  ⟨wholeDelays (by decide +kernel), _, _, WithPlan.narrow (withPlan (by simp [shipped]) read_ko1 netKo_ok ko1_sheet (tableOK rfl) netKo_loop
      ko1n8Plan_sections ko1n8Plan_ok)
    (by decide +kernel), by decide +kernel⟩

theorem ko1n9_inTime : InTime ⟨netKo, ko1All, "14:00"⟩ ko1n9Delays :=
  ⟨wholeDelays (by decide +kernel), _, _, WithPlan.narrow (withPlan (by simp [shipped]) read_ko1 netKo_ok ko1_sheet (tableOK rfl) netKo_loop
      ko1n9Plan_sections ko1n9Plan_ok)
    (by decide +kernel), by decide +kernel⟩

theorem ko1n10_inTime : InTime ⟨netKo, ko1All, "14:00"⟩ ko1n10Delays :=
  ⟨wholeDelays (by decide +kernel), _, _, WithPlan.narrow (withPlan (by simp [shipped]) read_ko1 netKo_ok ko1_sheet (tableOK rfl) netKo_loop
      ko1n10Plan_sections ko1n10Plan_ok)
    (by decide +kernel), by decide +kernel⟩

theorem ko1n11_inTime : InTime ⟨netKo, ko1All, "14:00"⟩ ko1n11Delays :=
  ⟨wholeDelays (by decide +kernel), _, _, WithPlan.narrow (withPlan (by simp [shipped]) read_ko1 netKo_ok ko1_sheet (tableOK rfl) netKo_loop
      ko1n11Plan_sections ko1n11Plan_ok)
    (by decide +kernel), by decide +kernel⟩

theorem ko3n1_inTime : InTime ⟨netKoR, ko3All, "14:00"⟩ ko3n1Delays :=
  ⟨wholeDelays (by decide +kernel), _, _, WithPlan.narrow (withPlan (by simp [shipped]) read_ko3 netKoR_ok ko3_sheet (tableOK rfl) netKoR_loop
      ko3n1Plan_sections ko3n1Plan_ok)
    (by decide +kernel), by decide +kernel⟩

theorem ko3n2_inTime : InTime ⟨netKoR, ko3All, "14:00"⟩ ko3n2Delays :=
  ⟨wholeDelays (by decide +kernel), _, _, WithPlan.narrow (withPlan (by simp [shipped]) read_ko3 netKoR_ok ko3_sheet (tableOK rfl) netKoR_loop
      ko3n2Plan_sections ko3n2Plan_ok)
    (by decide +kernel), by decide +kernel⟩

theorem ko3n3_inTime : InTime ⟨netKoR, ko3All, "14:00"⟩ ko3n3Delays :=
  ⟨wholeDelays (by decide +kernel), _, _, WithPlan.narrow (withPlan (by simp [shipped]) read_ko3 netKoR_ok ko3_sheet (tableOK rfl) netKoR_loop
      ko3n3Plan_sections ko3n3Plan_ok)
    (by decide +kernel), by decide +kernel⟩

theorem ko3n4_inTime : InTime ⟨netKoR, ko3All, "14:00"⟩ ko3n4Delays :=
  ⟨wholeDelays (by decide +kernel), _, _, WithPlan.narrow (withPlan (by simp [shipped]) read_ko3 netKoR_ok ko3_sheet (tableOK rfl) netKoR_loop
      ko3n4Plan_sections ko3n4Plan_ok)
    (by decide +kernel), by decide +kernel⟩

theorem ko3n5_inTime : InTime ⟨netKoR, ko3All, "14:00"⟩ ko3n5Delays :=
  ⟨wholeDelays (by decide +kernel), _, _, WithPlan.narrow (withPlan (by simp [shipped]) read_ko3 netKoR_ok ko3_sheet (tableOK rfl) netKoR_loop
      ko3n5Plan_sections ko3n5Plan_ok)
    (by decide +kernel), by decide +kernel⟩

theorem ko3n6_inTime : InTime ⟨netKoR, ko3All, "14:00"⟩ ko3n6Delays :=
  ⟨wholeDelays (by decide +kernel), _, _, WithPlan.narrow (withPlan (by simp [shipped]) read_ko3 netKoR_ok ko3_sheet (tableOK rfl) netKoR_loop
      ko3n6Plan_sections ko3n6Plan_ok)
    (by decide +kernel), by decide +kernel⟩

theorem ko3n7_inTime : InTime ⟨netKoR, ko3All, "14:00"⟩ ko3n7Delays :=
  ⟨wholeDelays (by decide +kernel), _, _, WithPlan.narrow (withPlan (by simp [shipped]) read_ko3 netKoR_ok ko3_sheet (tableOK rfl) netKoR_loop
      ko3n7Plan_sections ko3n7Plan_ok)
    (by decide +kernel), by decide +kernel⟩

theorem ko3n8_inTime : InTime ⟨netKoR, ko3All, "14:00"⟩ ko3n8Delays :=
  ⟨wholeDelays (by decide +kernel), _, _, WithPlan.narrow (withPlan (by simp [shipped]) read_ko3 netKoR_ok ko3_sheet (tableOK rfl) netKoR_loop
      ko3n8Plan_sections ko3n8Plan_ok)
    (by decide +kernel), by decide +kernel⟩

theorem ko3n9_inTime : InTime ⟨netKoR, ko3All, "14:00"⟩ ko3n9Delays :=
  ⟨wholeDelays (by decide +kernel), _, _, WithPlan.narrow (withPlan (by simp [shipped]) read_ko3 netKoR_ok ko3_sheet (tableOK rfl) netKoR_loop
      ko3n9Plan_sections ko3n9Plan_ok)
    (by decide +kernel), by decide +kernel⟩

theorem ko3n10_inTime : InTime ⟨netKoR, ko3All, "14:00"⟩ ko3n10Delays :=
  ⟨wholeDelays (by decide +kernel), _, _, WithPlan.narrow (withPlan (by simp [shipped]) read_ko3 netKoR_ok ko3_sheet (tableOK rfl) netKoR_loop
      ko3n10Plan_sections ko3n10Plan_ok)
    (by decide +kernel), by decide +kernel⟩

theorem ko3n11_inTime : InTime ⟨netKoR, ko3All, "14:00"⟩ ko3n11Delays :=
  ⟨wholeDelays (by decide +kernel), _, _, WithPlan.narrow (withPlan (by simp [shipped]) read_ko3 netKoR_ok ko3_sheet (tableOK rfl) netKoR_loop
      ko3n11Plan_sections ko3n11Plan_ok)
    (by decide +kernel), by decide +kernel⟩

/-- **C81**, the sheets of `solve_real_problem.py`: with any penalty larger than the best value of the
objective, the bit strings of least energy of the QUBO are those of the best solutions. -/
theorem C81_real : ∀ c ∈ realCases, ∀ p, 0 < p → c.2.2 < 40 * p →
    QuboSolves c.1 c.2.1 40 (penalties p) (c.2.2 / 40) := by
  intro c hc p h0 hp
  have ho := C79_real c hc
  refine InTime.qubo ?_ ho h0 hp
  clear ho hp
  simp only [realCases, List.mem_cons, List.not_mem_nil, or_false] at hc
  rcases hc with rfl | rfl | rfl | rfl | rfl | rfl | rfl
  · exact base_inTime
  · exact real1_inTime
  · exact real2_inTime
  · exact real3_inTime
  · exact real4_inTime
  · exact real5_inTime
  · exact real6_inTime

/-- the full claim for the default penalty of `solve_real_problem.py` (lines 79-84) -/
def C81_statement : Prop := ∀ c ∈ realCases, QuboSolves c.1 c.2.1 40 (penalties 1) (c.2.2 / 40)

/-- the default penalty in the cases 0 to 3, in which the best value is smaller -/
theorem C81_low : ∀ c ∈ realCases.take 4, QuboSolves c.1 c.2.1 40 (penalties 1) (c.2.2 / 40) :=
  fun c hc => C81_real c (List.mem_of_mem_take hc) 1 (by norm_num)
    ((show ∀ c ∈ realCases.take 4, c.2.2 < 40 * 1 by decide +kernel) c hc)

/-- **C81**, the first sheet of `solve_KO_GLC_problems.py` with its penalty 2.5 -/
theorem C81_ko1 : ∀ c ∈ ko1Cases,
    QuboSolves ⟨netKo, ko1All, "14:00"⟩ c.1 40 (penalties (5 / 2)) (c.2 / 40) := by
  intro c hc
  have ho := C79_ko1 c hc
  have hp : c.2 < 40 * (5 / 2) := (show ∀ c ∈ ko1Cases, c.2 < 40 * (5 / 2) by decide +kernel) c hc
  refine InTime.qubo ?_ ho (by norm_num) hp
  clear ho hp
  simp only [ko1Cases, List.mem_cons, List.not_mem_nil, or_false] at hc
  rcases hc with rfl | rfl | rfl | rfl | rfl | rfl | rfl | rfl | rfl | rfl | rfl | rfl
  · exact ko1_inTime
  · exact ko1n1_inTime
  · exact ko1n2_inTime
  · exact ko1n3_inTime
  · exact ko1n4_inTime
  · exact ko1n5_inTime
  · exact ko1n6_inTime
  · exact ko1n7_inTime
  · exact ko1n8_inTime
  · exact ko1n9_inTime
  · exact ko1n10_inTime
  · exact ko1n11_inTime

/-- **C81**, the third sheet of `solve_KO_GLC_problems.py` with its penalty 2.5 -/
theorem C81_ko3 : ∀ c ∈ ko3Cases,
    QuboSolves ⟨netKoR, ko3All, "14:00"⟩ c.1 40 (penalties (5 / 2)) (c.2 / 40) := by
  intro c hc
  have ho := C79_ko3 c hc
  have hp : c.2 < 40 * (5 / 2) := (show ∀ c ∈ ko3Cases, c.2 < 40 * (5 / 2) by decide +kernel) c hc
  refine InTime.qubo ?_ ho (by norm_num) hp
  clear ho hp
  simp only [ko3Cases, List.mem_cons, List.not_mem_nil, or_false] at hc
  rcases hc with rfl | rfl | rfl | rfl | rfl | rfl | rfl | rfl | rfl | rfl | rfl | rfl
  · exact ko3_inTime
  · exact ko3n1_inTime
  · exact ko3n2_inTime
  · exact ko3n3_inTime
  · exact ko3n4_inTime
  · exact ko3n5_inTime
  · exact ko3n6_inTime
  · exact ko3n7_inTime
  · exact ko3n8_inTime
  · exact ko3n9_inTime
  · exact ko3n10_inTime
  · exact ko3n11_inTime

end Real

end Verif
