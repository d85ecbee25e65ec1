import Verif.Props.RealSafe

/-!
# C68: what the guarantees leave out in the shipped data

`SafePlan` makes exceptions for some tracks and switches. Here it is shown that there are none in the
sheets of `KO_GLC`, and which trains they concern in the sheets of `solve_real_problem.py`.
-/

namespace Verif.Real

set_option maxRecDepth 100000

variable {N : CodedNet} {good : List (Nat × Nat)} {cs : List CodedSection} {td : Trains}

/-- the section of a train -/
theorem coded_section (hs : ∀ c ∈ cs, N.secOK good c = true)
    (L : LoadedFrom (cs.map N.sec) N.stationTable td) {t : Int} {rows : List Row}
    (ht : TableOf td t rows) :
    ∃ c ∈ cs, t = (c.number : Int) ∧ rows.map (·.toRawRow) = (N.sec c).rows := by
  obtain ⟨s, h1, h2, h3⟩ := L.rows ht
  obtain ⟨c, hc, rfl⟩ := List.mem_map.1 h1
  exact ⟨c, hc, h2.trans (CodedNet.secFacts (hs c hc)).train, h3⟩

/-- the station of a row is in the table -/
theorem coded_station (L : LoadedFrom (cs.map N.sec) N.stationTable td) {t : Int} {rows : List Row}
    (ht : TableOf td t rows) {q : Row} (hq : q ∈ rows) {x : String} (hx : q.station = some x) :
    ∃ e ∈ N.stations, e.1 = x := by
  obtain ⟨e, he, h1, -⟩ := CodedNet.belongs_named ((L.station ht hq).1 hx)
  exact ⟨e, he, h1⟩

/-- the block of a row -/
theorem coded_block {c : CodedSection} {rows : List Row}
    (h : rows.map (·.toRawRow) = (N.sec c).rows) {q : Row} (hq : q ∈ rows) :
    ∃ y ∈ c.rows, q.path = nameOf N.names y.1 := by
  have := raw_mem h hq
  obtain ⟨y, hy, e⟩ := List.mem_map.1 this
  exact ⟨y, hy, by rw [← e]; rfl⟩

/-- no two trains have numbers `n` and `10 n + 9` -/
def noPairs (cs : List CodedSection) : Bool :=
  cs.all fun c => cs.all fun c' => !Nat.beq c'.number (10 * c.number + 9)

theorem noPairs_td (hs : ∀ c ∈ cs, N.secOK good c = true)
    (L : LoadedFrom (cs.map N.sec) N.stationTable td) (h : noPairs cs = true) {t t' : Int}
    {rows rows' : List Row} (ht : TableOf td t rows) (ht' : TableOf td t' rows') : ¬ Paired t t' := by
  obtain ⟨c, hc, rfl, -⟩ := coded_section hs L ht
  obtain ⟨c', hc', rfl, -⟩ := coded_section hs L ht'
  unfold noPairs at h
  simp only [List.all_eq_true, Bool.not_eq_true', ← Bool.not_eq_true, Nat.beq_eq] at h
  rintro (he | he)
  · exact h c' hc' c hc (by omega)
  · exact h c hc c' hc' (by omega)

/-- trains with numbers outside `bad` do not end in another station whose name contains the name of a
station, and for those in `bad` this station is `KO` -/
def Inside (N : CodedNet) (cs : List CodedSection) (bad : List Nat) : Prop :=
  ∀ e ∈ N.stations, ∀ e' ∈ N.stations, e.1.toList <:+: e'.1.toList → e.1 ≠ e'.1 →
    ∀ c ∈ cs, ∀ b ∈ (c.rows.map Prod.fst).getLast?, e'.2.any (Nat.beq b) = true →
      e.1 = "KO" ∧ c.number ∈ bad

theorem inside_td (hs : ∀ c ∈ cs, N.secOK good c = true) (W : N.NetOK good)
    (L : LoadedFrom (cs.map N.sec) N.stationTable td) {bad : List Nat} (h : Inside N cs bad) {t : Int}
    {x : String} (hx : ∃ e ∈ N.stations, e.1 = x) (hn : NameInside td N.stationTable t x) :
    x = "KO" ∧ ∃ n ∈ bad, t = (n : Int) := by
  obtain ⟨n, hne, ⟨rows, r, ht, hl, hb⟩, hin⟩ := hn
  obtain ⟨e, he, rfl⟩ := hx
  obtain ⟨c, hc, rfl, hr⟩ := coded_section hs L ht
  have hlast : (c.rows.map N.row).getLast? = some r.toRawRow := by
    show (N.sec c).rows.getLast? = _
    rw [← hr, List.getLast?_map, hl]
    rfl
  rw [List.getLast?_map] at hlast
  obtain ⟨y, hy, hyr⟩ := Option.map_eq_some_iff.1 hlast
  have hp : r.path = nameOf N.names y.1 := by
    show r.toRawRow.path = _
    rw [← hyr]
    rfl
  rw [hp] at hb
  obtain ⟨e', he', rfl, hb'⟩ := (CodedNet.belongs_coded W.names).1 hb
  obtain ⟨h1, h2⟩ := h e he e' he' hin (fun h => hne h.symm) c hc y.1
    (by rw [List.getLast?_map, hy]; rfl) (CodedNet.any_beq.2 hb')
  exact ⟨h1, _, h2, rfl⟩

/-- the numbers of the blocks that the code leaves out -/
theorem blocksLeftOut_coded : ∀ bl ∈ blocksLeftOut, ∃ i ∈ [61, 62, 63], nameOf names i = bl := by
  decide +kernel

/-- a block that the code leaves out is used by no train -/
def unused (cs : List CodedSection) : Bool :=
  cs.all fun c => c.rows.all fun y => !Nat.beq y.1 61 && !Nat.beq y.1 62 && !Nat.beq y.1 63

theorem unused_td (hn : N.names = names) (hs : ∀ c ∈ cs, N.secOK good c = true)
    (L : LoadedFrom (cs.map N.sec) N.stationTable td) (h : unused cs = true) {t : Int}
    {rows : List Row} (ht : TableOf td t rows) {q : Row} (hq : q ∈ rows) :
    q.path ∉ blocksLeftOut := by
  intro hb
  obtain ⟨i, hi, e⟩ := blocksLeftOut_coded _ hb
  obtain ⟨c, hc, -, hr⟩ := coded_section hs L ht
  obtain ⟨y, hy, e'⟩ := coded_block hr hq
  rw [hn, ← e] at e'
  have := names_ok.inj e'
  unfold unused at h
  simp only [List.all_eq_true, Bool.and_eq_true, Bool.not_eq_true', ← Bool.not_eq_true,
    Nat.beq_eq] at h
  obtain ⟨⟨h1, h2⟩, h3⟩ := h c hc y hy
  simp only [List.mem_cons, List.not_mem_nil, or_false] at hi
  omega

/-! ## The sheets of `KO_GLC` -/

/-- The guarantees without exceptions: of trains against each other one waits for the other, a track is
free before the next train comes, and no two trains pass a switch together. -/
structure NoConflicts (td : Trains) (st : Stations) (table : List PathRow) (r : Int)
    (D : Val → Val → ℚ → Prop) : Prop where
  opposite : ∀ t t' x x2 rows rows' m m' d d', TableOf td t rows → TableOf td t' rows' →
    Consecutive rows x x2 m → Consecutive rows' x2 x m' →
    m.map (·.path) = (m'.map (·.path)).reverse → m ≠ [] →
    D (.int t) (.str x) d → D (.int t') (.str x2) d' →
    d + roundIf r (timesOf m).sum ≤ d' ∨ d' + roundIf r (timesOf m').sum ≤ d
  tracks : ∀ t t' x rows rows' q q' a a' d d', t ≠ t' → TableOf td t rows → TableOf td t' rows' →
    q ∈ rows → q' ∈ rows' → q.station = some x → q'.station = some x → q.path = q'.path →
    InStationFor td st r D t x a d → InStationFor td st r D t' x a' d' → d ≤ a' ∨ d' ≤ a
  switches : ∀ t t' x a a' S S' z c c', t ≠ t' → SwitchesAt td table t x a S →
    SwitchesAt td table t' x a' S' → z ∈ S → z ∈ S' →
    PassesSwitches td r D x t a c → PassesSwitches td r D x t' a' c' → c + 1 ≤ c' ∨ c' + 1 ≤ c

/-- the conditions under which there are no exceptions -/
structure NoExceptions (N : CodedNet) (cs : List CodedSection) : Prop where
  names : N.names = names
  pairs : noPairs cs = true
  inside : Inside N cs []
  unused : unused cs = true
  stations : ∀ e ∈ N.stations, e.1 ∉ ["KO(KS)", "KO(IC)", "KO(STM)"]

theorem noConflicts (H : NoExceptions N cs) (W : N.NetOK good)
    (hs : ∀ c ∈ cs, N.secOK good c = true) (L : LoadedFrom (cs.map N.sec) N.stationTable td)
    {r : Int} {t1 : String} {delays : List (Int × ℚ)} {D : Val → Val → ℚ → Prop}
    (S : SafePlan td N.stationTable N.pathTable t1 r delays D) :
    NoConflicts td N.stationTable N.pathTable r D where
  opposite := fun t t' x x2 rows rows' m m' d d' ht ht' =>
    S.opposite t t' x x2 rows rows' m m' d d' (noPairs_td hs L H.pairs ht ht') ht ht'
  tracks := by
    intro t t' x rows rows' q q' a a' d d' hne ht ht' hq hq' hx hx' hp hd hd'
    obtain ⟨e, he, hex⟩ := coded_station L ht hq hx
    have hin : ∀ {t : Int}, ¬ NameInside td N.stationTable t x := fun h => by
      obtain ⟨-, n, hn, -⟩ := inside_td hs W L H.inside ⟨e, he, hex⟩ h
      cases hn
    refine S.tracks t t' x q q' a a' d d' ⟨hne, noPairs_td hs L H.pairs ht ht', ⟨rows, ht, hq⟩,
      ⟨rows', ht', hq'⟩, hx, hx', hp, ?_, unused_td H.names hs L H.unused ht hq⟩ hin hin hd hd'
    have := H.stations e he
    rw [hex] at this
    simp only [List.mem_cons, not_or] at this ⊢
    exact ⟨this.1, this.2.1, by simp⟩
  switches := by
    intro t t' x a a' S1 S2 z c c' hne h1 h2 hz hz' hp hp'
    have hst : ∃ rows q, TableOf td t rows ∧ q ∈ rows ∧ q.station = some x := by
      obtain ⟨rows, ht, ⟨-, pre, q, post, e, hq, -⟩ | ⟨-, pre, q, post, e, hq, -⟩⟩ := h1
      · exact ⟨rows, q, ht, by rw [e]; simp, hq⟩
      · exact ⟨rows, q, ht, by rw [e]; simp, hq⟩
    obtain ⟨rows, q, ht, hq, hx⟩ := hst
    obtain ⟨rows', ht', -⟩ := id h2
    obtain ⟨e, he, hex⟩ := coded_station L ht hq hx
    have := H.stations e he
    rw [hex] at this
    simp only [List.mem_cons, not_or] at this
    refine S.switches t t' x a a' S1 S2 z c c' hne (noPairs_td hs L H.pairs ht ht') ?_
      (fun h => absurd h this.2.2.1) h1 h2 hz hz' hp hp'
    simp only [List.mem_cons, not_or]
    exact ⟨this.2.1, this.1, by simp⟩

theorem ko1_none : NoExceptions netKo ko1 where
  names := rfl
  pairs := by decide +kernel
  inside := by unfold Inside; decide +kernel
  unused := by decide +kernel
  stations := by decide +kernel

theorem ko2_none : NoExceptions netKoR ko2 where
  names := rfl
  pairs := by decide +kernel
  inside := by unfold Inside; decide +kernel
  unused := by decide +kernel
  stations := by decide +kernel

theorem ko3_none : NoExceptions netKoR ko3 where
  names := rfl
  pairs := by decide +kernel
  inside := by unfold Inside; decide +kernel
  unused := by decide +kernel
  stations := by decide +kernel

/-- every feasible plan of the problem is without conflicts -/
def PlansClear (td : Trains) (st : Stations) (table : List PathRow) (t1 : String) : Prop :=
  ∀ r delays dmax cat ts tt b σ, makeInput td st table t1 r delays = .ok (ts, tt) →
    buildProblem ts tt dmax cat = .ok b → Feasible b σ →
    NoConflicts td st table r (Departs ts tt b.dv σ)

/-- C68 for a shipped problem -/
def C68_statement (d : Shipped) : Prop :=
  ∃ td, buildTimetables d.sheet d.net.stationTable d.net.pathTable = .ok td ∧
    PlansClear td d.net.stationTable d.net.pathTable d.start

theorem clear_of_none {d : Shipped} (hr : ReadSafe d cs) (W : d.net.NetOK good)
    (hs : ∀ c ∈ cs, d.net.secOK good c = true) (H : NoExceptions d.net cs) : C68_statement d := by
  obtain ⟨td, h1, L, h2⟩ := hr.plans
  exact ⟨td, h1, fun r delays dmax cat ts tt b σ hi hb hf =>
    noConflicts H W hs L (h2 r delays dmax cat ts tt b σ hi hb hf)⟩

theorem safe_ko1 : ReadSafe ⟨netKo, ko1All, "14:00"⟩ ko1 :=
  ⟨read_ko1, CodedNet.safeSheet_of_checks netKo_ok (tableOK rfl) ko1_ends⟩

theorem safe_ko2 : ReadSafe ⟨netKoR, ko2All, "14:00"⟩ ko2 :=
  ⟨read_ko2, CodedNet.safeSheet_of_checks netKoR_ok (tableOK rfl) ko2_ends⟩

theorem safe_ko3 : ReadSafe ⟨netKoR, ko3All, "14:00"⟩ ko3 :=
  ⟨read_ko3, CodedNet.safeSheet_of_checks netKoR_ok (tableOK rfl) ko3_ends⟩

/-- **C68.** For the sheets of `KO_GLC` there are no exceptions: whatever the delays, the rounding, the
category of the variables and `d_max`, in every feasible plan no two trains meet on a line, occupy the
same track or pass the same switch within a minute. Missing: the four sheets of
`solve_real_problem.py`, where the code makes exceptions (`C68_exceptions`). -/
theorem C68_clear_partial : ∀ d ∈ shipped.drop 4, C68_statement d := by
  intro d hd
  have : d ∈ [(⟨netKo, ko1All, "14:00"⟩ : Shipped), ⟨netKoR, ko2All, "14:00"⟩,
    ⟨netKoR, ko3All, "14:00"⟩] := hd
  simp only [List.mem_cons, List.not_mem_nil, or_false] at this
  rcases this with rfl | rfl | rfl
  · exact clear_of_none safe_ko1 netKo_ok ko1_sheet.sections ko1_none
  · exact clear_of_none safe_ko2 netKoR_ok ko2_sheet.sections ko2_none
  · exact clear_of_none safe_ko3 netKoR_ok ko3_sheet.sections ko3_none

/-! ## The sheets of `solve_real_problem.py` -/

/-- the trains that the code leaves out at `KO` -/
def leftOut : List Nat := [94766, 40518, 343199, 44862, 541019]

/-- the trains in `leftOut` do end in a station with `KO` in its name, and pass `KO` before -/
def DoEnd (N : CodedNet) (cs : List CodedSection) : Prop :=
  ∀ n ∈ leftOut, ∃ c ∈ cs, c.number = n ∧
    (∃ e ∈ N.stations, "KO".toList <:+: e.1.toList ∧ e.1 ≠ "KO" ∧
      ∃ b ∈ (c.rows.map Prod.fst).getLast?, e.2.any (Nat.beq b) = true) ∧
    ∃ e ∈ N.stations, e.1 = "KO" ∧ ∃ y ∈ c.rows, e.2.any (Nat.beq y.1) = true

/-- Train `t` is at station `x` and left out by the rule for the tracks of `x`. -/
def LeftOutAt (td : Trains) (st : Stations) (t : Int) (x : String) : Prop :=
  (∃ rows, TableOf td t rows ∧ ∃ q ∈ rows, q.station = some x) ∧ NameInside td st t x

theorem leftOut_iff (hs : ∀ c ∈ cs, N.secOK good c = true) (W : N.NetOK good)
    (L : LoadedFrom (cs.map N.sec) N.stationTable td) (h : Inside N cs leftOut) (h' : DoEnd N cs)
    (t : Int) (x : String) :
    LeftOutAt td N.stationTable t x ↔ x = "KO" ∧ ∃ n ∈ leftOut, t = (n : Int) := by
  constructor
  · rintro ⟨⟨rows, ht, q, hq, hx⟩, hn⟩
    exact inside_td hs W L h (coded_station L ht hq hx) hn
  · rintro ⟨rfl, n, hn, rfl⟩
    obtain ⟨c, hc, rfl, ⟨e, he, h1, h2, b, hb, hbe⟩, e', he', hko, y, hy, hye⟩ := h' n hn
    have hc' : N.sec c ∈ cs.map N.sec := List.mem_map.2 ⟨c, hc, rfl⟩
    have hnum : (N.sec c).train = (c.number : Int) := (CodedNet.secFacts (hs c hc)).train
    refine ⟨?_, e.1, h2, ?_, h1⟩
    · obtain ⟨rows, ht, hr⟩ := L.section hc'
      rw [hnum] at ht
      refine ⟨rows, ht, ?_⟩
      have : N.row y ∈ rows.map (·.toRawRow) := by
        rw [hr]
        exact List.mem_map.2 ⟨y, hy, rfl⟩
      obtain ⟨q, hq, e⟩ := List.mem_map.1 this
      refine ⟨q, hq, (L.station ht hq).2 ?_⟩
      have hp : q.path = nameOf N.names y.1 := by
        show q.toRawRow.path = _
        rw [e]
        rfl
      rw [hp]
      exact (CodedNet.belongs_coded W.names).2 ⟨e', he', hko, CodedNet.any_beq.1 hye⟩
    · rw [← hnum]
      refine (L.ends hc').2 ⟨nameOf N.names b, ?_, (CodedNet.belongs_coded W.names).2
        ⟨e, he, rfl, CodedNet.any_beq.1 hbe⟩⟩
      have : (N.sec c).rows.map (·.path) = (c.rows.map Prod.fst).map (nameOf N.names) := by
        show (c.rows.map N.row).map _ = _
        simp only [List.map_map]
        rfl
      rw [this, List.getLast?_map, show (c.rows.map Prod.fst).getLast? = some b from hb]
      rfl

theorem base_inside : Inside net base leftOut ∧ DoEnd net base := by
  unfold Inside DoEnd
  constructor <;> decide +kernel

theorem gt_inside : Inside netGt gt leftOut ∧ DoEnd netGt gt := by
  unfold Inside DoEnd
  constructor <;> decide +kernel

theorem one_inside : Inside net one leftOut ∧ DoEnd net one := by
  unfold Inside DoEnd
  constructor <;> decide +kernel

theorem onegt_inside : Inside netGt onegt leftOut ∧ DoEnd netGt onegt := by
  unfold Inside DoEnd
  constructor <;> decide +kernel

/-- In the four sheets of `solve_real_problem.py` the exceptions for names that contain other names
concern exactly five trains at `KO`: those that end in `KO(STM)` or `KO(IC)`. -/
theorem C68_exceptions : ∀ d ∈ shipped.take 4,
    ∃ td, buildTimetables d.sheet d.net.stationTable d.net.pathTable = .ok td ∧
      ∀ t x, LeftOutAt td d.net.stationTable t x ↔ x = "KO" ∧ ∃ n ∈ leftOut, t = (n : Int) := by
  intro d hd
  have : d ∈ [(⟨net, base, "16:00"⟩ : Shipped), ⟨netGt, gt, "16:00"⟩, ⟨net, one, "16:00"⟩,
    ⟨netGt, onegt, "16:00"⟩] := hd
  simp only [List.mem_cons, List.not_mem_nil, or_false] at this
  rcases this with rfl | rfl | rfl | rfl
  · obtain ⟨td, h1, L, -⟩ := C63_data read_base.1 read_base.2
    exact ⟨td, h1, leftOut_iff base_sheet.sections net_ok L base_inside.1 base_inside.2⟩
  · obtain ⟨td, h1, L, -⟩ := C63_data read_gt.1 read_gt.2
    exact ⟨td, h1, leftOut_iff gt_sheet.sections netGt_ok L gt_inside.1 gt_inside.2⟩
  · obtain ⟨td, h1, L, -⟩ := C63_data read_one.1 read_one.2
    exact ⟨td, h1, leftOut_iff one_sheet.sections net_ok L one_inside.1 one_inside.2⟩
  · obtain ⟨td, h1, L, -⟩ := C63_data read_onegt.1 read_onegt.2
    exact ⟨td, h1, leftOut_iff onegt_sheet.sections netGt_ok L onegt_inside.1 onegt_inside.2⟩

end Verif.Real
