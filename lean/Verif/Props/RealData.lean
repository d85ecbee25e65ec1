import Verif.Real.BaseOk
import Verif.Real.GtOk
import Verif.Real.OneOk
import Verif.Real.OneGtOk
import Verif.Real.Ko1Ok
import Verif.Real.Ko2Ok
import Verif.Real.Ko3Ok

/-!
# C64, C65: the shipped data

The seven timetables in `/repo/data` that the scripts `solve_real_problem.py` and
`solve_KO_GLC_problems.py` read, with their tables of stations and the path table, all transcribed
in `Verif/Real`.
-/

namespace Verif.Real

set_option maxRecDepth 100000

/-- one of the shipped problems: the network, the sections of the sheet, and the start of the
disturbances (`t1`) -/
structure Shipped where
  net : CodedNet
  sections : List CodedSection
  start : String

/-- the sheet, row by row -/
def Shipped.sheet (d : Shipped) : List RawRow := sheetOf (d.sections.map d.net.sec)

/-- The data read by `solve_real_problem.py`, lines 98-126, and `solve_KO_GLC_problems.py`, lines
72-96. -/
def shipped : List Shipped := [
  ⟨net, base, "16:00"⟩, ⟨netGt, gt, "16:00"⟩, ⟨net, one, "16:00"⟩, ⟨netGt, onegt, "16:00"⟩,
  ⟨netKo, ko1All, "14:00"⟩, ⟨netKoR, ko2All, "14:00"⟩, ⟨netKoR, ko3All, "14:00"⟩]

/-- the sections that are left when each number stands for the last section with it -/
def kept : List (List CodedSection) := [base, gt, one, onegt, ko1, ko2, ko3]

theorem repeated {N : CodedNet} {good : List (Nat × Nat)} {R : List (Nat × Nat × List Nat)}
    {A B C : List CodedSection} {c c' : CodedSection} (W : N.NetOK good)
    (S : N.SheetOK good R (A ++ c' :: B ++ C)) (hc : N.secOK good c = true)
    (he : c.number = c'.number) {t1 : String} (ht : CodedNet.clockText t1 = true) :
    timetableToTrainDict (sheetOf ((A ++ c :: B ++ c' :: C).map N.sec)) =
      .ok (((A ++ c' :: B ++ C).map N.sec).map fun s => (s.train, (s.info, s.rows))) := by
  have G := CodedNet.goodSheet_of_checks W S ht
  have hn := G.numbers
  simp only [List.map_append, List.map_cons] at hn ⊢
  have := C42_repeated (A.map N.sec) (B.map N.sec) (C.map N.sec) (N.sec c) (N.sec c') (by
    intro x hx
    by_cases h : x = N.sec c
    · exact h ▸ CodedNet.secWf W (CodedNet.secFacts hc)
    · refine G.sections x ?_
      simp only [List.map_append, List.map_cons, List.mem_append, List.mem_cons] at hx ⊢
      tauto) (by
    have e1 := (CodedNet.secFacts hc).train
    have e2 := (CodedNet.secFacts (S.sections c' (by simp))).train
    change intOf c.numberText = intOf c'.numberText
    rw [e1, e2, he]) (by simpa only [List.map_append, List.map_cons] using hn)
  simpa only [List.map_append, List.map_cons] using this

/-- A sheet from which the timetables, the input and the problem are built, whatever the delays. -/
def RunsThrough (data : List RawRow) (st : Stations) (table : List PathRow) (t1 : String) : Prop :=
  ∃ td, buildTimetables data st table = .ok td ∧
    ∀ (r : Int) (delays : List (Int × ℚ)) (dmax : ℚ) (cat : Cat), dmax ≠ 0 →
      ∃ ts tt b, makeInput td st table t1 r delays = .ok (ts, tt) ∧
        buildProblem ts tt dmax cat = .ok b

/-- `d` is read as the good sheet with the sections `cs` -/
def ReadAs (d : Shipped) (cs : List CodedSection) : Prop :=
  GoodSheet (cs.map d.net.sec) d.net.stationTable d.net.pathTable d.start ∧
    timetableToTrainDict d.sheet = .ok ((cs.map d.net.sec).map fun s => (s.train, (s.info, s.rows)))

theorem readAs_of_checks {N : CodedNet} {good : List (Nat × Nat)} {R : List (Nat × Nat × List Nat)}
    {cs : List CodedSection} (W : N.NetOK good) (S : N.SheetOK good R cs) {t1 : String}
    (ht : CodedNet.clockText t1 = true) : ReadAs ⟨N, cs, t1⟩ cs :=
  have G := CodedNet.goodSheet_of_checks W S ht
  ⟨G, C42_sheet_partial _ G.sections G.numbers⟩

theorem readAs_repeated {N : CodedNet} {good : List (Nat × Nat)} {R : List (Nat × Nat × List Nat)}
    {A B C : List CodedSection} {c c' : CodedSection} (W : N.NetOK good)
    (S : N.SheetOK good R (A ++ c' :: B ++ C)) (hc : N.secOK good c = true)
    (he : c.number = c'.number) {t1 : String} (ht : CodedNet.clockText t1 = true) :
    ReadAs ⟨N, A ++ c :: B ++ c' :: C, t1⟩ (A ++ c' :: B ++ C) :=
  ⟨CodedNet.goodSheet_of_checks W S ht, repeated W S hc he ht⟩

theorem read_base : ReadAs ⟨net, base, "16:00"⟩ base :=
  readAs_of_checks net_ok base_sheet (by decide +kernel)

theorem read_gt : ReadAs ⟨netGt, gt, "16:00"⟩ gt :=
  readAs_of_checks netGt_ok gt_sheet (by decide +kernel)

theorem read_one : ReadAs ⟨net, one, "16:00"⟩ one :=
  readAs_of_checks net_ok one_sheet (by decide +kernel)

theorem read_onegt : ReadAs ⟨netGt, onegt, "16:00"⟩ onegt :=
  readAs_of_checks netGt_ok onegt_sheet (by decide +kernel)

theorem read_ko1 : ReadAs ⟨netKo, ko1All, "14:00"⟩ ko1 :=
  readAs_repeated (A := ko1A) (B := ko1B) (C := ko1C) (c := train_ko1_102_first)
    (c' := train_ko1_102) (t1 := "14:00") netKo_ok ko1_sheet (by decide +kernel) rfl
    (by decide +kernel)

theorem read_ko2 : ReadAs ⟨netKoR, ko2All, "14:00"⟩ ko2 :=
  readAs_repeated (A := ko2A) (B := ko2B) (C := ko2C) (c := train_ko2_102_first)
    (c' := train_ko2_102) (t1 := "14:00") netKoR_ok ko2_sheet (by decide +kernel) rfl
    (by decide +kernel)

theorem read_ko3 : ReadAs ⟨netKoR, ko3All, "14:00"⟩ ko3 :=
  readAs_repeated (A := ko3A) (B := ko3B) (C := ko3C) (c := train_ko3_103_first)
    (c' := train_ko3_103) (t1 := "14:00") netKoR_ok ko3_sheet (by decide +kernel) rfl
    (by decide +kernel)

/-- each shipped sheet is read as a good one -/
theorem shipped_read : List.Forall₂ ReadAs shipped kept :=
  .cons read_base <| .cons read_gt <| .cons read_one <| .cons read_onegt <| .cons read_ko1 <|
    .cons read_ko2 <| .cons read_ko3 .nil

/-- **C64.** From each of the seven shipped timetables, with any delays of any trains, any rounding,
any category of the variables and any `d_max` other than zero, the timetables, the input and the
problem are built: no exception is raised. -/
theorem C64_shipped : ∀ d ∈ shipped,
    RunsThrough d.sheet d.net.stationTable d.net.pathTable d.start := by
  intro d hd
  obtain ⟨cs, -, hr⟩ : ∃ cs ∈ kept, ReadAs d cs := by
    have := shipped_read
    revert hd
    generalize shipped = ds at this
    generalize kept = ks at this ⊢
    intro hd
    induction this with
    | nil => cases hd
    | cons h _ ih =>
      rcases List.mem_cons.1 hd with rfl | hd
      · exact ⟨_, List.mem_cons_self, h⟩
      · obtain ⟨cs, h1, h2⟩ := ih hd
        exact ⟨cs, List.mem_cons_of_mem _ h1, h2⟩
  obtain ⟨td, h1, -, h3⟩ := C63_data hr.1 hr.2
  exact ⟨td, h1, h3⟩

/-- The rows of the section are those of no train in the timetables, though the section is in the
sheet. -/
def Lost (d : Shipped) (c : CodedSection) : Prop :=
  c ∈ d.sections ∧ ∃ td, buildTimetables d.sheet d.net.stationTable d.net.pathTable = .ok td ∧
    ∀ t rows, TableOf td t rows → rows.map (·.toRawRow) ≠ (d.net.sec c).rows

theorem lost_of_check {d : Shipped} {cs : List CodedSection} {c : CodedSection} (hr : ReadAs d cs)
    (hc : c ∈ d.sections) (h : ∀ x ∈ cs, x.rows.map (·.2.dep) ≠ c.rows.map (·.2.dep)) : Lost d c := by
  obtain ⟨td, h1, L, -⟩ := C63_data hr.1 hr.2
  refine ⟨hc, td, h1, fun t rows ht he => ?_⟩
  obtain ⟨s, hs, -, h3⟩ := L.rows ht
  obtain ⟨x, hx, rfl⟩ := List.mem_map.1 hs
  apply h x hx
  have := congrArg (List.map (·.dep)) (h3.symm.trans he)
  simpa [CodedNet.sec, CodedNet.row, Function.comp_def] using this

/-- C65, full statement: every section of the sheet is a train with its number and rows. -/
def C65_statement (d : Shipped) : Prop :=
  ∃ td, buildTimetables d.sheet d.net.stationTable d.net.pathTable = .ok td ∧
    ∀ c ∈ d.sections, ∃ rows, TableOf td c.number rows ∧ rows.map (·.toRawRow) = (d.net.sec c).rows

theorem kept_of_checks {N : CodedNet} {good : List (Nat × Nat)} {R : List (Nat × Nat × List Nat)}
    {cs : List CodedSection} (W : N.NetOK good) (S : N.SheetOK good R cs) {t1 : String}
    (ht : CodedNet.clockText t1 = true) : C65_statement ⟨N, cs, t1⟩ := by
  have hr := readAs_of_checks W S ht
  obtain ⟨td, h1, L, -⟩ := C63_data hr.1 hr.2
  refine ⟨td, h1, fun c hc => ?_⟩
  obtain ⟨rows, h2, h3⟩ := L.section (List.mem_map_of_mem (f := N.sec) hc)
  have e := (CodedNet.secFacts (S.sections c hc)).train
  exact ⟨rows, (show (N.sec c).train = c.number from e) ▸ h2, h3⟩

/-- C65 for the four sheets of `solve_real_problem.py`. Missing: the three sheets of `KO_GLC`, for
which it is false. -/
theorem C65_kept_partial : ∀ d ∈ shipped.take 4, C65_statement d := by
  intro d hd
  rw [show shipped.take 4 = [⟨net, base, "16:00"⟩, ⟨netGt, gt, "16:00"⟩, ⟨net, one, "16:00"⟩,
    ⟨netGt, onegt, "16:00"⟩] from rfl] at hd
  simp only [List.mem_cons, List.not_mem_nil, or_false] at hd
  rcases hd with rfl | rfl | rfl | rfl
  · exact kept_of_checks net_ok base_sheet (by decide +kernel)
  · exact kept_of_checks netGt_ok gt_sheet (by decide +kernel)
  · exact kept_of_checks net_ok one_sheet (by decide +kernel)
  · exact kept_of_checks netGt_ok onegt_sheet (by decide +kernel)

theorem Lost.not_kept {d : Shipped} {c : CodedSection} (h : Lost d c) : ¬ C65_statement d := by
  rintro ⟨td, h1, h2⟩
  obtain ⟨hc, td', h1', h3⟩ := h
  cases h1.symm.trans h1'
  obtain ⟨rows, ht, he⟩ := h2 c hc
  exact h3 _ _ ht he

/-- In each of the three sheets of `KO_GLC` a train is lost: its number is given to a later
train as well (102 leaving Katowice at 14:15 and at 14:45 in the first two, 103 in the third), and
only the later one is in the timetables. -/
theorem C65_lost : Lost ⟨netKo, ko1All, "14:00"⟩ train_ko1_102_first ∧
    Lost ⟨netKoR, ko2All, "14:00"⟩ train_ko2_102_first ∧
    Lost ⟨netKoR, ko3All, "14:00"⟩ train_ko3_103_first :=
  ⟨lost_of_check read_ko1 (by simp [ko1All]) (by decide +kernel),
    lost_of_check read_ko2 (by simp [ko2All]) (by decide +kernel),
    lost_of_check read_ko3 (by simp [ko3All]) (by decide +kernel)⟩

/-- C65 is false of the three sheets of `KO_GLC`. -/
theorem C65_false : ∀ d ∈ shipped.drop 4, ¬ C65_statement d := by
  intro d hd
  rw [show shipped.drop 4 = [⟨netKo, ko1All, "14:00"⟩, ⟨netKoR, ko2All, "14:00"⟩,
    ⟨netKoR, ko3All, "14:00"⟩] from rfl] at hd
  simp only [List.mem_cons, List.not_mem_nil, or_false] at hd
  rcases hd with rfl | rfl | rfl
  · exact C65_lost.1.not_kept
  · exact C65_lost.2.1.not_kept
  · exact C65_lost.2.2.not_kept

end Verif.Real
