import Verif.Props.RealPrinted
import Verif.Props.Statistics

/-!
# C76, C77 and C78 for the shipped sheets and the segments of `railway_lines.py`
-/

namespace Verif
namespace Real

set_option maxRecDepth 100000

/-- C76 and C77 for a shipped problem: whatever the whole delays, `d_max` and the time of reference,
unless train 343199 is delayed before by more than `d_max`: the solutions are printed, all trains are
drawn with the departures of the solution, and the secondary delays are collected for the stations -/
def C76_statement (d : Shipped) : Prop :=
  ∃ td, buildTimetables d.sheet d.net.stationTable d.net.pathTable = .ok td ∧
  ∀ delays dmax ts tt b σ (tref epoch : ℤ), (∀ d ∈ delays, IsInt d.2) → dmax ≠ 0 →
    addedDelay delays 343199 ≤ dmax →
    makeInput td d.net.stationTable d.net.pathTable d.start 1 delays = .ok (ts, tt) →
    buildProblem ts tt dmax .integer = .ok b → Feasible b σ →
    ∃ pass0 skip dep r, getTausPass td 0 = .ok pass0 ∧ ts.skipStation = some skip ∧
      (∀ t x, Leaves td t x → Departs ts tt b.dv σ (.int t) (.str x) (dep t x)) ∧
      printOptimisationResults b.prob ts tt pass0 skip dmax tref σ = .ok r ∧
      Dict.keys r = (Dict.keys td).map Val.int ∧
      (∀ t rows, TableOf td t rows → ∃ sch, Dict.get? r (.int t) = some sch ∧
        ((∀ x ∈ sch, ∀ a, x.2.arrive = some a → epoch ≤ a) →
          DrawnTwice td d.net.stationTable d.start delays dep tref epoch t rows sch)) ∧
      ∀ x, StationDelays td d.start delays dmax dep r x

/-- **C76, C77.** All trains of the shipped sheets are drawn, and their delays are collected. -/
theorem C76_shipped : ∀ d ∈ shipped, C76_statement d := by
  intro d hd
  obtain ⟨td, h1, hall⟩ := C75_shipped d hd
  obtain ⟨cs, -, ⟨⟨G, h0⟩, S⟩⟩ := forall₂_left shipped_safe hd
  obtain ⟨td', h1', h2⟩ := G.load h0
  cases Except.ok.inj (h1.symm.trans h1')
  have L := G.loaded h2
  refine ⟨td, h1, fun delays dmax ts tt b σ tref epoch hw hne hdl h hb hf => ?_⟩
  obtain ⟨pass0, skip, dep, r, p1, p2, p3, p4, p5, p6⟩ := hall delays dmax ts tt b σ tref hw hne hdl h hb hf
  refine ⟨pass0, skip, dep, r, p1, p2, p3, p4, p5, fun t rows ht => ?_, fun x =>
    C77_delays (G.goodData L) h hb hf p3 p5 p6 x⟩
  obtain ⟨sch, q1, q2, q3⟩ := p6 t rows ht
  exact ⟨sch, q1, fun he => C76_train (G.goodData L) (S.timesOK h2) h hb hf p3 ht q2 q3 he⟩

/-! ## The statistics of the four sheets of `solve_real_problem.py` -/

/-- some train of the sheet leaves station `x` -/
def leftIn (N : CodedNet) (cs : List CodedSection) (x : String) : Bool :=
  N.stations.any fun e => decide (e.1 = x) && cs.any fun c => c.rows.dropLast.any fun y => e.2.contains y.1

theorem leftIn_td {N : CodedNet} {good : List (Nat × Nat)} {cs : List CodedSection} {td : Trains}
    (hs : ∀ c ∈ cs, N.secOK good c = true) (W : N.NetOK good)
    (L : LoadedFrom (cs.map N.sec) N.stationTable td) (hb : ∀ e ∈ td, BlocksOnce e.2.2) {x : String}
    (h : leftIn N cs x = true) : ∃ t, Leaves td t x := by
  unfold leftIn at h
  simp only [List.any_eq_true, Bool.and_eq_true, decide_eq_true_eq, List.contains_iff_mem] at h
  obtain ⟨e, he, rfl, c, hc, y, hy, hi⟩ := h
  exact ⟨c.number, leaves_coded hs W L hb hc hy he hi⟩

/-- the stations for which the statistics are made -/
def namesConsidered : List String := ["KO(STM)", "KO", "CB", "KL", "MJ"]

theorem names_considered : consideredStations = namesConsidered.map Val.str := rfl

/-- C77 for a shipped problem -/
def C77_statement (d : Shipped) : Prop :=
  ∃ td, buildTimetables d.sheet d.net.stationTable d.net.pathTable = .ok td ∧
  ∀ delays dmax ts tt b σ (tref : ℤ), (∀ d ∈ delays, IsInt d.2) → dmax ≠ 0 →
    addedDelay delays 343199 ≤ dmax →
    makeInput td d.net.stationTable d.net.pathTable d.start 1 delays = .ok (ts, tt) →
    buildProblem ts tt dmax .integer = .ok b → Feasible b σ →
    ∃ pass0 skip r l, getTausPass td 0 = .ok pass0 ∧ ts.skipStation = some skip ∧
      printOptimisationResults b.prob ts tt pass0 skip dmax tref σ = .ok r ∧
      getPrintStatistics (addDelaysOneRealisation [] r) consideredStations = .ok l ∧
      l.length = 5 ∧ ∀ s ∈ l, ∃ mn mx a b, s.minimum = some mn ∧ s.maximum = some mx ∧
        s.q25 = some a ∧ s.q75 = some b ∧ 0 ≤ (mn : ℚ) ∧ mn ≤ a ∧ a ≤ b ∧ b ≤ mx ∧ (mx : ℚ) ≤ dmax ∧
        mn ≤ s.mean ∧ s.mean ≤ mx

theorem statistics_of {d : Shipped} (hd : d ∈ shipped)
    (hl : ∀ td, buildTimetables d.sheet d.net.stationTable d.net.pathTable = .ok td →
      ∀ x ∈ namesConsidered, ∃ t, Leaves td t x) : C77_statement d := by
  obtain ⟨td, h1, hall⟩ := C76_shipped d hd
  refine ⟨td, h1, fun delays dmax ts tt b σ tref hw hne hdl h hb hf => ?_⟩
  obtain ⟨pass0, skip, dep, r, p1, p2, p3, p4, -, -, p7⟩ := hall delays dmax ts tt b σ tref 0 hw hne hdl h
    hb hf
  have hx : ∀ x ∈ namesConsidered, Dict.get? (addDelaysOneRealisation [] r) (.str x) =
      some (delaysAt r (.str x)) ∧ delaysAt r (.str x) ≠ [] ∧
      ∀ s ∈ delaysAt r (.str x), 0 ≤ (s : ℚ) ∧ (s : ℚ) ≤ dmax := by
    intro x hx
    obtain ⟨who, -, w2, w3⟩ := p7 x
    obtain ⟨t, ht⟩ := hl td h1 x hx
    have hne' : delaysAt r (.str x) ≠ [] := by
      intro e
      rw [e] at w3
      cases w3
      exact absurd ((w2 t).2 ht) (by simp)
    refine ⟨?_, hne', fun s hs => ?_⟩
    · rw [C77_collected, if_neg hne']
      simp [Dict.get?]
    · obtain ⟨t, -, rows, e, -, -, -, h3, h4⟩ := forall₂_right w3 hs
      exact ⟨h3, h4⟩
  obtain ⟨l, h2, h3⟩ := (C77_printed (addDelaysOneRealisation [] r) consideredStations).1 (by
    intro e he
    rw [names_considered] at he
    obtain ⟨x, hx', rfl⟩ := List.mem_map.1 he
    exact ⟨_, (hx x hx').1⟩)
  refine ⟨pass0, skip, r, l, p1, p2, p4, h2, h3.length_eq.symm, fun s hs => ?_⟩
  obtain ⟨e, he, xs, hxs, rfl⟩ := forall₂_right h3 hs
  rw [names_considered] at he
  obtain ⟨x, hx', rfl⟩ := List.mem_map.1 he
  obtain ⟨k1, k2, k3⟩ := hx x hx'
  rw [k1] at hxs
  cases hxs
  obtain ⟨mn, mx, a, b', n1, n2, n3, n4, n5, n6, -, n8, n9, n10, n11, n12⟩ := C77_numbers k2
  exact ⟨mn, mx, a, b', n1, n2, n3, n4, (k3 mn n5).1, n8, n9, n10, (k3 mx n6).2, n11, n12⟩

theorem statistics_coded {N : CodedNet} {good : List (Nat × Nat)} {cs cs' : List CodedSection}
    (hd : (⟨N, cs', "16:00"⟩ : Shipped) ∈ shipped) (hr : ReadAs ⟨N, cs', "16:00"⟩ cs)
    (W : N.NetOK good) (hs : ∀ c ∈ cs, N.secOK good c = true)
    (hl : ∀ x ∈ namesConsidered, leftIn N cs x = true) : C77_statement ⟨N, cs', "16:00"⟩ := by
  refine statistics_of hd fun td h1 x hx => ?_
  obtain ⟨G, h0⟩ := hr
  obtain ⟨td', h1', h2⟩ := G.load h0
  cases Except.ok.inj (h1.symm.trans h1')
  have L := G.loaded h2
  exact leftIn_td hs W L (G.goodData L).trains.blocks (hl x hx)

/-- **C77.** For all four sheets of `solve_real_problem.py` the statistics of every solution are printed,
none of the five stations is missing, and the numbers are between 0 and `d_max`. -/
theorem C77_shipped : ∀ d ∈ shipped.take 4, C77_statement d := by
  intro d hd
  simp only [shipped, List.take_succ_cons, List.take_zero, List.mem_cons, List.not_mem_nil,
    or_false] at hd
  rcases hd with rfl | rfl | rfl | rfl
  · exact statistics_coded (by simp [shipped]) read_base net_ok base_sheet.sections (by decide +kernel)
  · exact statistics_coded (by simp [shipped]) read_gt netGt_ok gt_sheet.sections (by decide +kernel)
  · exact statistics_coded (by simp [shipped]) read_one net_ok one_sheet.sections (by decide +kernel)
  · exact statistics_coded (by simp [shipped]) read_onegt netGt_ok onegt_sheet.sections
      (by decide +kernel)

end Real

/-! ## C78: the kilometres -/

/-- the distances of the segment are those of the railway lines -/
def AgreesWithLines (seg : List SegStation) : Prop :=
  ∀ ln ∈ railwayLines, ∀ x ∈ seg, ∀ y ∈ seg, ∀ x' ∈ ln, ∀ y' ∈ ln, x.name = x'.name → y.name = y'.name →
    |x.km - y.km| = |x'.km - y'.km|

instance (seg : List SegStation) : Decidable (AgreesWithLines seg) := by
  unfold AgreesWithLines; infer_instance

/-- **C78**, stations: in every segment the kilometres increase, and each station is found by its name
and by its call sign, if it has one, at its kilometre. -/
theorem C78_found : ∀ seg ∈ railwaySegments, (seg.map (·.km)).Pairwise (· < ·) ∧ ∀ x ∈ seg,
    station2km seg (.str x.name) = some x.km ∧
    (x.callsign ≠ "" → station2km seg (.str x.callsign) = some x.km) := by decide +kernel

/-- C78, distances: right for one of the three segments -/
theorem C78_distances_partial : AgreesWithLines seg137138GLYKZ := by decide +kernel

/-- C78 is false of the tables for the two others: from Katowice to Tychy there are 16.97 km on line 139,
and 60.07 on the segment; from Zawodzie to Katowice 2.72 km on line 138 and 2.71 on the segment. -/
theorem C78_false : ¬ AgreesWithLines seg137139GLYTy ∧ ¬ AgreesWithLines seg138139KZTY := by
  decide +kernel

/-- the stations of the sheets in Katowice and on the lines to Gliwice are found under their names -/
example : ["GLC", "ZZ", "RCB", "CB", "KTC", "KO", "KO(STM)", "KZ"].map
    (fun s => station2km seg137138GLYKZ (.str s)) = [some 0, some (818 / 100), some (1536 / 100),
      some (2094 / 100), some (2419 / 100), some (2671 / 100), some (2721 / 100),
      some (2943 / 100)] ∧ station2km seg137138GLYKZ (.str "KL") = none := by decide +kernel

end Verif
