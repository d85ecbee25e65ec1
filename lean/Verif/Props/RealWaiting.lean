import Verif.Props.Waiting2
import Verif.Props.RealExceptions

/-!
# C69, false for the shipped data

In the sheet of `KO_GLC` trains 2, 4, 6, 8 leave Katowice at 14:00, 14:10, 14:20 and 14:30, all from
the same track. If delays of 20 minutes for train 4 and of 10 minutes for train 6 are given, there is no
feasible plan, whatever `d_max`.
-/

namespace Verif.Real

set_option maxRecDepth 100000

variable {N : CodedNet} {good : List (Nat × Nat)} {cs : List CodedSection} {td : Trains}
  {t1 : String} {r : Int} {delays : List (Int × ℚ)}

/-- where and when the train of a section begins -/
theorem begins_coded (hs : ∀ c ∈ cs, N.secOK good c = true) (W : N.NetOK good)
    (L : LoadedFrom (cs.map N.sec) N.stationTable td) {c : CodedSection} (hc : c ∈ cs) {i : Nat}
    {y : RawRow} {ys : List (Nat × RawRow)} (hr : c.rows = (i, y) :: ys) {e : String × List Nat}
    (he : e ∈ N.stations) (hi : i ∈ e.2) {dep : String} (hd : y.dep = some dep) {v : ℚ}
    (hv : calcTimeDiff t1 dep = .ok v)
    (hgo : ∀ b ∈ (c.rows.map Prod.fst).getLast?, ∀ e' ∈ N.stations, b ∈ e'.2 →
      ¬ e.1.toList <:+: e'.1.toList)
    (halone : noPairs cs = true) :
    Begins td N.stationTable t1 r delays c.number e.1 (nameOf N.names i)
      (max v (v + addedDelay delays c.number)) := by
  have hc' : N.sec c ∈ cs.map N.sec := List.mem_map.2 ⟨c, hc, rfl⟩
  have hnum : (N.sec c).train = (c.number : Int) := (CodedNet.secFacts (hs c hc)).train
  obtain ⟨rows, ht, hraw⟩ := L.section hc'
  rw [hnum] at ht
  have hraw' : rows.map (·.toRawRow) = N.row (i, y) :: ys.map N.row := by
    rw [hraw]
    show c.rows.map N.row = _
    rw [hr]
    rfl
  obtain ⟨row, rest, rfl⟩ : ∃ row rest, rows = row :: rest := by
    cases rows with
    | nil => cases hraw'
    | cons row rest => exact ⟨row, rest, rfl⟩
  simp only [List.map_cons, List.cons.injEq] at hraw'
  have hpath : row.path = nameOf N.names i := by
    show row.toRawRow.path = _
    rw [hraw'.1]
    rfl
  have hdep : row.dep = some dep := by
    show row.toRawRow.dep = _
    rw [hraw'.1]
    exact hd
  have hst : row.station = some e.1 := (L.station ht (List.mem_cons_self)).2 (by
    rw [hpath]
    exact (CodedNet.belongs_coded W.names).2 ⟨e, he, rfl, hi⟩)
  refine ⟨⟨_, row, ht, ⟨[], rest, rfl, hst, by simp⟩, hpath, ?_⟩, ?_, ?_⟩
  · exact .first ⟨[], rest, rfl, hst, by simp⟩ (.inl ⟨dep, hdep, calcTimeDiff_iff.1 hv⟩)
      (.inl ⟨dep, v, ⟨[], row, rest, rfl, hst, hdep, by simp⟩, calcTimeDiff_iff.1 hv, rfl⟩)
  · intro n hn
    rw [← hnum] at hn
    obtain ⟨bl, hbl, hbel⟩ := (L.ends hc').1 hn
    have : (N.sec c).rows.map (·.path) = (c.rows.map Prod.fst).map (nameOf N.names) := by
      show (c.rows.map N.row).map _ = _
      simp only [List.map_map]
      rfl
    rw [this, List.getLast?_map] at hbl
    obtain ⟨b, hb, rfl⟩ := Option.map_eq_some_iff.1 hbl
    obtain ⟨e', he', rfl, hbe⟩ := (CodedNet.belongs_coded W.names).1 hbel
    exact hgo b hb e' he' hbe
  · intro u hp hu
    obtain ⟨x, hx, rfl⟩ := List.mem_map.1 hu
    exact noPairs_td hs L halone (TableOf.of_mem L.nodup hx) ht hp

/-- the switches that the train of a section passes when it leaves its first block -/
theorem out_coded (hs : ∀ c ∈ cs, N.secOK good c = true) (W : N.NetOK good)
    (L : LoadedFrom (cs.map N.sec) N.stationTable td) {c : CodedSection} (hc : c ∈ cs) {i k : Nat}
    {y w : RawRow} {ys : List (Nat × RawRow)} (hr : c.rows = (i, y) :: (k, w) :: ys)
    {e : String × List Nat} (he : e ∈ N.stations) (hi : i ∈ e.2)
    (hlater : ∃ z ∈ ys, N.inSt z.1 = true) {p : PathRow} (hp : (i, k, p) ∈ N.table) {S : List Int}
    (hS : CellSwitches p.switches S) :
    SwitchesAt td N.pathTable c.number e.1 "out" S := by
  have hc' : N.sec c ∈ cs.map N.sec := List.mem_map.2 ⟨c, hc, rfl⟩
  have hnum : (N.sec c).train = (c.number : Int) := (CodedNet.secFacts (hs c hc)).train
  obtain ⟨rows, ht, hraw⟩ := L.section hc'
  rw [hnum] at ht
  have hraw' : rows.map (·.toRawRow) = N.row (i, y) :: N.row (k, w) :: ys.map N.row := by
    rw [hraw]
    show c.rows.map N.row = _
    rw [hr]
    rfl
  obtain ⟨row, row2, rest, rfl⟩ : ∃ row row2 rest, rows = row :: row2 :: rest := by
    cases rows with
    | nil => cases hraw'
    | cons row rest =>
      cases rest with
      | nil => simp at hraw'
      | cons row2 rest => exact ⟨row, row2, rest, rfl⟩
  simp only [List.map_cons, List.cons.injEq] at hraw'
  have hpath : row.path = nameOf N.names i := by
    show row.toRawRow.path = _
    rw [hraw'.1]
    rfl
  have hpath2 : row2.path = nameOf N.names k := by
    show row2.toRawRow.path = _
    rw [hraw'.2.1]
    rfl
  have hst : row.station = some e.1 := (L.station ht (List.mem_cons_self)).2 (by
    rw [hpath]
    exact (CodedNet.belongs_coded W.names).2 ⟨e, he, rfl, hi⟩)
  refine ⟨_, ht, .inr ⟨rfl, [], row, row2 :: rest, rfl, hst, .inr ⟨?_, row2, rest, rfl, ?_⟩⟩⟩
  · obtain ⟨z, hz, hzi⟩ := hlater
    have : N.row z ∈ rest.map (·.toRawRow) := by
      rw [hraw'.2.2]
      exact List.mem_map.2 ⟨z, hz, rfl⟩
    obtain ⟨q, hq, e⟩ := List.mem_map.1 this
    refine ⟨q, List.mem_cons_of_mem _ hq, (L.inStation ht ?_).2 ?_⟩
    · exact List.mem_cons_of_mem _ (List.mem_cons_of_mem _ hq)
    · have hq : q.path = nameOf N.names z.1 := by
        show q.toRawRow.path = _
        rw [e]
        rfl
      rw [hq]
      exact (CodedNet.inStation_coded W.names).2 hzi
  · refine .inr ⟨_, List.mem_map.2 ⟨_, hp, rfl⟩, ?_, hS⟩
    rw [hpath, hpath2]
    exact .inl ⟨rfl, rfl⟩

/-- the delays: train 4 by 20 minutes, train 6 by 10 minutes -/
def lateTrains : List (Int × ℚ) := [(4, 20), (6, 10)]

theorem ko1_switches : (14, 83, (⟨"", "", .textTuple [61, 64, 69, 71, 87, 92], some 3, some 3,
    some 1, some 1⟩ : PathRow)) ∈ table := by
  decide +kernel

/-- trains 4, 6 and 8 all begin on the same track at 14:30 at the earliest -/
theorem ko1_blocked (L : LoadedFrom (ko1.map netKo.sec) netKo.stationTable td) (r : Int) :
    Blocked td netKo.stationTable netKo.pathTable "14:00" r lateTrains [4, 6, 8] "KO"
      (nameOf names 14) 61 30 := by
  have hKO : ("KO", [16, 14, 0, 10, 11, 13, 15, 39]) ∈ netKo.stations := .head _
  have hgo : ∀ c ∈ [train_ko1_4, train_ko1_6, train_ko1_8],
      ∀ b ∈ (c.rows.map Prod.fst).getLast?, ∀ e' ∈ netKo.stations, b ∈ e'.2 →
        ¬ "KO".toList <:+: e'.1.toList := by
    decide +kernel
  have h4 : train_ko1_4 ∈ ko1 := by simp [ko1, ko1A]
  have h6 : train_ko1_6 ∈ ko1 := by simp [ko1, ko1B]
  have h8 : train_ko1_8 ∈ ko1 := by simp [ko1, ko1B]
  have B4 := begins_coded (r := r) (delays := lateTrains) (t1 := "14:00") (v := 10)
    ko1_sheet.sections netKo_ok L h4 rfl hKO (by simp) rfl (by decide +kernel)
    (hgo _ (by simp)) ko1_none.pairs
  have B6 := begins_coded (r := r) (delays := lateTrains) (t1 := "14:00") (v := 20)
    ko1_sheet.sections netKo_ok L h6 rfl hKO (by simp) rfl (by decide +kernel)
    (hgo _ (by simp)) ko1_none.pairs
  have B8 := begins_coded (r := r) (delays := lateTrains) (t1 := "14:00") (v := 30)
    ko1_sheet.sections netKo_ok L h8 rfl hKO (by simp) rfl (by decide +kernel)
    (hgo _ (by simp)) ko1_none.pairs
  have e4 : max (10 : ℚ) (10 + addedDelay lateTrains (train_ko1_4.number : Int)) = 30 := by
    decide +kernel
  have e6 : max (20 : ℚ) (20 + addedDelay lateTrains (train_ko1_6.number : Int)) = 30 := by
    decide +kernel
  have e8 : max (30 : ℚ) (30 + addedDelay lateTrains (train_ko1_8.number : Int)) = 30 := by
    decide +kernel
  rw [e4] at B4
  rw [e6] at B6
  rw [e8] at B8
  have S4 := out_coded ko1_sheet.sections netKo_ok L h4 rfl hKO (by simp)
    ⟨(1, ⟨"", some "R", some "14:16", some "14:16", none, some "Chorzów Batory", none, none⟩), by simp,
      by decide +kernel⟩ ko1_switches rfl
  have S6 := out_coded ko1_sheet.sections netKo_ok L h6 rfl hKO (by simp)
    ⟨(1, ⟨"", some "R", some "14:26", some "14:26", none, some "Chorzów Batory", none, none⟩), by simp,
      by decide +kernel⟩ ko1_switches rfl
  have S8 := out_coded ko1_sheet.sections netKo_ok L h8 rfl hKO (by simp)
    ⟨(1, ⟨"", some "R", some "14:36", some "14:36", none, some "Chorzów Batory", none, none⟩), by simp,
      by decide +kernel⟩ ko1_switches rfl
  refine ⟨by decide, by decide, by decide +kernel, ?_, ?_⟩
  · intro t ht
    simp only [List.mem_cons, List.not_mem_nil, or_false] at ht
    rcases ht with rfl | rfl | rfl
    · exact B4
    · exact B6
    · exact B8
  · intro t ht
    simp only [List.mem_cons, List.not_mem_nil, or_false] at ht
    rcases ht with rfl | rfl | rfl
    · exact ⟨_, S4, by simp⟩
    · exact ⟨_, S6, by simp⟩
    · exact ⟨_, S8, by simp⟩

/-- **C69**, false: from the shipped sheet `KO_GLC/train_timetables_KO_GLC.xlsx`, with delays of 20
minutes for train 4 and of 10 minutes for train 6, a problem is built for every `d_max` other than zero,
and none of these problems has a feasible plan. -/
theorem C69_false : ∃ td, buildTimetables (Shipped.sheet ⟨netKo, ko1All, "14:00"⟩) netKo.stationTable
      netKo.pathTable = .ok td ∧
    ∀ (r : Int) (cat : Cat), ∃ ts tt,
      makeInput td netKo.stationTable netKo.pathTable "14:00" r lateTrains = .ok (ts, tt) ∧
      (∀ dmax : ℚ, dmax ≠ 0 → ∃ b, buildProblem ts tt dmax cat = .ok b) ∧
      (∀ dmax b, buildProblem ts tt dmax cat = .ok b → ¬ ∃ σ, Feasible b σ) ∧
      ¬ C69_statement ts tt cat := by
  obtain ⟨td, h1, L, h3⟩ := C63_data read_ko1.1 read_ko1.2
  refine ⟨td, h1, fun r cat => ?_⟩
  obtain ⟨ts, tt, -, h, -⟩ := h3 r lateTrains 1 cat (by simp)
  have hbuilt : ∀ dmax : ℚ, dmax ≠ 0 → ∃ b, buildProblem ts tt dmax cat = .ok b := by
    intro dmax hd
    obtain ⟨ts', tt', b, h', hb⟩ := h3 r lateTrains dmax cat hd
    have e : (ts', tt') = (ts, tt) := Except.ok.inj (h'.symm.trans h)
    cases e
    exact ⟨b, hb⟩
  have hnone : ∀ dmax b, buildProblem ts tt dmax cat = .ok b → ¬ ∃ σ, Feasible b σ := fun dmax b hb =>
    C69_blocked (read_ko1.1.goodData L) h (read_ko1.1.readable L).meet
      (CodedNet.sameCells_coded names_ok (tableOK rfl)) (ko1_blocked L r) hb
  refine ⟨ts, tt, h, hbuilt, hnone, ?_⟩
  rintro ⟨d0, hd0⟩
  obtain ⟨b, hb⟩ := hbuilt (max d0 1) (by have := le_max_right d0 1; intro e; linarith)
  exact hnone _ b hb (hd0 _ b (le_max_left _ _) hb)

end Verif.Real
