import Verif.Props.RealSafe
import Verif.Props.Optimal

/-!
# C71 and C72 for whole sheets and for the shipped data
-/

namespace Verif

/-- The solutions of the problem are the timetables that keep the rules of the tables, and the optimal
ones are those with the smallest sum of delays. -/
def ProblemExact (td : Trains) (st : Stations) (table : List PathRow) (t1 : String) : Prop :=
  ∀ r delays dmax cat ts tt b, 0 < dmax → makeInput td st table t1 r delays = .ok (ts, tt) →
    buildProblem ts tt dmax cat = .ok b →
    (∀ dep : Int → String → ℚ, (∃ σ, Feasible b σ ∧ ∀ t x, Leaves td t x →
        Departs ts tt b.dv σ (.int t) (.str x) (dep t x)) ↔
      ∃ first against enters,
        TableRules td st table t1 r delays dmax cat ⟨dep, first, against, enters⟩) ∧
    ∀ σ dep, (∀ t x, Leaves td t x → Departs ts tt b.dv σ (.int t) (.str x) (dep t x)) →
      ((∀ σ', Feasible b σ' → b.prob.objective.eval σ ≤ b.prob.objective.eval σ') ↔
      ∀ π cs cs', TableRules td st table t1 r delays dmax cat π →
        List.Forall₂ (CountedDelay td t1 r delays dep) (Dict.keys td) cs →
        List.Forall₂ (CountedDelay td t1 r delays π.dep) (Dict.keys td) cs' → cs.sum ≤ cs'.sum)

section
variable {secs : List Section} {st : Stations} {table : List PathRow} {t1 : String}

/-- no three trains have the numbers `n`, `10 n + 9` and `10 (10 n + 9) + 9` -/
def NumbersOnce (secs : List Section) : Prop :=
  ∀ s ∈ secs, ∀ s' ∈ secs, s'.train = 10 * s.train + 9 → ∀ s'' ∈ secs, s''.train ≠ 10 * s'.train + 9

theorem C71_data (G : GoodSheet secs st table t1) (S : SafeSheet secs st table) (hn : NumbersOnce secs)
    {data : List RawRow}
    (h0 : timetableToTrainDict data = .ok (secs.map fun s => (s.train, (s.info, s.rows)))) :
    ∃ td, buildTimetables data st table = .ok td ∧ LoadedFrom secs st td ∧
      ProblemExact td st table t1 := by
  obtain ⟨td, h1, h2⟩ := G.load h0
  have L := G.loaded h2
  have hone : OneStock td st := oneStock_of_numbers (by
    rw [L.keys]
    intro n hn1 hn2 hn3
    obtain ⟨s, hs, rfl⟩ := List.mem_map.1 hn1
    obtain ⟨s', hs', e'⟩ := List.mem_map.1 hn2
    obtain ⟨s'', hs'', e''⟩ := List.mem_map.1 hn3
    exact hn s hs s' hs' e' s'' hs'' (by rw [e'', e']))
  refine ⟨td, h1, L, fun r delays dmax cat ts tt b hd h hb => ⟨fun dep => ?_, fun σ dep hdep => ?_⟩⟩
  · exact C71_exact (G.goodData L) (G.readable L).meet (G.turnaround L) (G.linesClear L) S.cells
      (S.goOn L) hone h hb dep
  · exact C72_optimal (G.goodData L) (G.readable L).meet h hb (G.turnaround L) (G.linesClear L) S.cells
      (S.goOn L) hone hd hdep

/-- **C71 and C72**, sheets. -/
theorem C71_sheet (G : GoodSheet secs st table t1) (S : SafeSheet secs st table)
    (hn : NumbersOnce secs) :
    ∃ td, buildTimetables (sheetOf secs) st table = .ok td ∧ LoadedFrom secs st td ∧
      ProblemExact td st table t1 :=
  C71_data G S hn (C42_sheet_partial secs G.sections G.numbers)

end

namespace Real

/-- executable check of `NumbersOnce` -/
def numbersOnce (cs : List CodedSection) : Bool :=
  let ns := cs.map (·.number)
  ns.all fun n => !(ns.any fun k => Nat.beq k (10 * n + 9)) ||
    !(ns.any fun k => Nat.beq k (10 * (10 * n + 9) + 9))

theorem shipped_numbers : ∀ cs ∈ kept, numbersOnce cs = true := by decide +kernel

theorem shipped_texts : ∀ cs ∈ kept, ∀ c ∈ cs, intOf c.numberText = (c.number : Int) := by
  decide +kernel

/-- **C71 and C72**, shipped data: for each of the seven shipped sheets, whatever the delays, the
rounding, the category of the variables and a positive `d_max`, the problem is exact. -/
theorem C71_shipped : ∀ d ∈ shipped,
    ∃ td, buildTimetables d.sheet d.net.stationTable d.net.pathTable = .ok td ∧
      ProblemExact td d.net.stationTable d.net.pathTable d.start := by
  intro d hd
  obtain ⟨cs, hcs, h⟩ := forall₂_left shipped_safe hd
  have hn : NumbersOnce (cs.map d.net.sec) := by
    have key := shipped_numbers cs hcs
    unfold numbersOnce at key
    simp only [List.all_eq_true, Bool.or_eq_true, Bool.not_eq_true', List.any_eq_false, Nat.beq_eq,
      List.mem_map, forall_exists_index, and_imp, forall_apply_eq_imp_iff₂] at key
    intro s hs s' hs' e s'' hs'' e''
    obtain ⟨c, hc, rfl⟩ := List.mem_map.1 hs
    obtain ⟨c', hc', rfl⟩ := List.mem_map.1 hs'
    obtain ⟨c'', hc'', rfl⟩ := List.mem_map.1 hs''
    have t : ∀ c ∈ cs, (d.net.sec c).train = c.number := shipped_texts cs hcs
    rw [t c hc, t c' hc'] at e
    rw [t c' hc', t c'' hc''] at e''
    rcases key c hc with k | k
    · exact k c' hc' (by omega)
    · exact k c'' hc'' (by omega)
  obtain ⟨td, h1, -, h2⟩ := C71_data h.1.1 h.2 hn h.1.2
  exact ⟨td, h1, h2⟩

end Real

end Verif
