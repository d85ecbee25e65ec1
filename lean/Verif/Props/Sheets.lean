import Verif.Props.Loaded
import Verif.Props.Sheet
import Verif.Props.Tables

/-!
# C63: from a good sheet to a problem

What the sheet of trains, the table of stations and the path table must satisfy, in terms of the
cells alone, so that `build_timetables`, `make_train_set`, `make_timetable` and
`create_linear_problem` run through.
-/

namespace Verif

/-- rows `a` and `b` follow each other -/
def Follows (rows : List RawRow) (a b : RawRow) : Prop := ∃ pre post, rows = pre ++ a :: b :: post

/-- the block is in some station -/
def InStation (st : Stations) (b : String) : Prop := ∃ x, BelongsTo st b x

/-- the rows lead from station `x` over the rows `mid`, which are in no station, to station `x2` -/
def LeadsTo (st : Stations) (rows : List RawRow) (x x2 : String) (mid : List RawRow) : Prop :=
  ∃ pre r1 r2 post, rows = pre ++ r1 :: mid ++ r2 :: post ∧ BelongsTo st r1.path x ∧
    BelongsTo st r2.path x2 ∧ ∀ r ∈ mid, ¬ InStation st r.path

/-- the train types with a weight -/
def knownTypes : List String :=
  ["KS - Os", "PR - R", "KS - OsP", "IC - TLK", "IC - IC", "IC - EIP", "IC - EIC"]

/-- a cell with switches that can be read -/
def SwitchCell.Clear (c : SwitchCell) : Prop :=
  (∃ n, c = .textInt n) ∨ (∃ l, c = .textTuple l) ∨ ∃ x y, c = .float x y

/-- section `s` ends in the block in which `s'` begins, and the trains have numbers `n`, `10 n + 9` -/
def HandsOver (s s' : Section) (b : String) : Prop :=
  (s.train = 10 * s'.train + 9 ∨ s'.train = 10 * s.train + 9) ∧
    (s.rows.map (·.path)).getLast? = some b ∧ (s'.rows.map (·.path)).head? = some b

/-- A good sheet. -/
structure GoodSheet (secs : List Section) (st : Stations) (table : List PathRow) (t1 : String) :
    Prop where
  /-- the sheet consists of sections, with different train numbers -/
  sections : ∀ s ∈ secs, s.Wf
  numbers : (secs.map Section.train).Nodup
  /-- the train types are known -/
  types : ∀ s ∈ secs, s.type.path ∈ knownTypes
  /-- no block is in two stations or twice in one; station names are not empty, not `p`, and have no
  characters that are special in keys or constraint names -/
  stations : WfStations st
  names : ∀ e ∈ st, e.1 ≠ "" ∧ e.1 ≠ "p" ∧ Plain (.str e.1) ∧ Legal e.1
  /-- a train has no block and no station twice; it leaves some station -/
  blocks : ∀ s ∈ secs, (s.rows.map (·.path)).Nodup
  once : ∀ s ∈ secs, ∀ a ∈ s.rows, ∀ b ∈ s.rows, ∀ x, BelongsTo st a.path x →
    BelongsTo st b.path x → a.path = b.path
  leaves : ∀ s ∈ secs, ∃ a b, Follows s.rows a b ∧ InStation st a.path
  /-- consecutive blocks are joined by a row of the path table, and the speed class is known; the
  switches on the way in or out of a station are readable -/
  joined : ∀ s ∈ secs, ∀ a b, Follows s.rows a b →
    (∃ row ∈ table, Joins row a.path b.path) ∧ (a.speed = some "R" ∨ a.speed = some "IC")
  switches : ∀ s ∈ secs, ∀ a b, Follows s.rows a b → InStation st a.path ∨ InStation st b.path →
    ∀ row ∈ table, Joins row a.path b.path → row.switches.Clear
  /-- times are times of day -/
  start : ∃ h m, IsClock t1 h m
  times : ∀ s ∈ secs, ∀ a ∈ s.rows, InStation st a.path → ∀ x,
    a.dep = some x ∨ a.approxEnter = some x → ∃ h m, IsClock x h m
  /-- trains `n` and `10 n + 9` hand over their rolling stock, in stations, and the one that takes it
  over has a turnaround time in its first row -/
  meet : ∀ s ∈ secs, ∀ s' ∈ secs, s'.train = 10 * s.train + 9 → ∃ b, HandsOver s s' b ∨ HandsOver s' s b
  place : ∀ s ∈ secs, ∀ s' ∈ secs, ∀ b, HandsOver s s' b → InStation st b ∧
    ∀ a, s'.rows.head? = some a → ∃ v, a.turnaround = some v
  /-- of two trains from one station to the next, neither runs over some of the blocks of the other
  only -/
  lines : ∀ s ∈ secs, ∀ s' ∈ secs, ∀ x x2 m m', LeadsTo st s.rows x x2 m →
    LeadsTo st s'.rows x x2 m' → (∀ a ∈ m, a.path ∈ m'.map (·.path)) →
    m.map (·.path) = m'.map (·.path)

variable {secs : List Section} {st : Stations} {table : List PathRow} {t1 : String} {td : Trains}

theorem passingTimes_found {tt : List RawRow} (h : ∀ a b, Follows tt a b →
    (∃ row ∈ table, Joins row a.path b.path) ∧ (a.speed = some "R" ∨ a.speed = some "IC")) :
    ∃ ts, passingTimes4blocks table tt = .ok ts := by
  unfold passingTimes4blocks
  obtain ⟨ts, hts⟩ := mapPy_succeeds (f := fun x : String × String × Option String =>
    singlePassingTime table x.1 x.2.1 x.2.2)
    (xs := (tt.map (·.path)).zip (((tt.map (·.path)).drop 1).zip (tt.map (·.speed)))) (by
      rintro ⟨p, q, sp⟩ hx
      obtain ⟨i, hi⟩ := List.mem_iff_getElem?.1 hx
      rw [List.getElem?_zip_eq_some, List.getElem?_zip_eq_some, List.getElem?_drop,
        List.getElem?_map, List.getElem?_map, List.getElem?_map] at hi
      obtain ⟨h1, h2, h3⟩ := hi
      obtain ⟨a, ha, rfl⟩ := Option.map_eq_some_iff.1 h1
      obtain ⟨b, hb, rfl⟩ := Option.map_eq_some_iff.1 h2
      rw [ha] at h3
      cases h3
      rw [Nat.add_comm] at hb
      obtain ⟨hl, rfl⟩ := List.getElem?_eq_some_iff.1 ha
      obtain ⟨hl', rfl⟩ := List.getElem?_eq_some_iff.1 hb
      have hf : Follows tt tt[i] tt[i + 1] := ⟨tt.take i, tt.drop (i + 2), by
        rw [List.cons_getElem_drop_succ, List.cons_getElem_drop_succ, List.take_append_drop]⟩
      obtain ⟨hj, hs⟩ := h _ _ hf
      exact (C44_raises table _ _ _).2.2 hj hs)
  exact ⟨_, by simp only [hts, bind, Except.bind]; rfl⟩

/-- the sheet is read, and the train dictionary is that of the sections -/
theorem GoodSheet.load (G : GoodSheet secs st table t1) {data : List RawRow}
    (h0 : timetableToTrainDict data = .ok (secs.map fun s => (s.train, (s.info, s.rows)))) :
    ∃ td, buildTimetables data st table = .ok td ∧
      updateAllTimetables table st (secs.map fun s => (s.train, (s.info, s.rows))) = .ok td := by
  obtain ⟨td, htd⟩ : ∃ td, updateAllTimetables table st
      (secs.map fun s => (s.train, (s.info, s.rows))) = .ok td := by
    refine mapPy_succeeds ?_
    rintro e he
    obtain ⟨s, hs, rfl⟩ := List.mem_map.1 he
    obtain ⟨ts, hts⟩ := passingTimes_found (table := table) (G.joined s hs)
    simp only [updateTimetable, hts, bind, Except.bind]
    exact ⟨_, rfl⟩
  refine ⟨td, ?_, htd⟩
  simp only [buildTimetables, h0, bind, Except.bind]
  exact htd

/-- `td` is the train dictionary made of the sections -/
structure LoadedFrom (secs : List Section) (st : Stations) (td : Trains) : Prop where
  numbers : (secs.map Section.train).Nodup
  keys : Dict.keys td = secs.map Section.train
  entry : ∀ e ∈ td, ∃ s ∈ secs, e.1 = s.train ∧ e.2.1 = s.info ∧ e.2.2.map (·.toRawRow) = s.rows
  tagged : Tagged st td

theorem GoodSheet.loaded (G : GoodSheet secs st table t1)
    (h : updateAllTimetables table st (secs.map fun s => (s.train, (s.info, s.rows))) = .ok td) :
    LoadedFrom secs st td where
  numbers := G.numbers
  keys := by
    rw [updateAll_keys h]
    simp [Dict.keys, Function.comp_def]
  entry := by
    intro e he
    obtain ⟨e0, he0, h1, h2, h3⟩ := forall₂_right (updateAll_forall₂ h) he
    obtain ⟨s, hs, rfl⟩ := List.mem_map.1 he0
    exact ⟨s, hs, h1, h2, (updateTimetable_rows h3).1⟩
  tagged := updateAll_tagged G.stations.1 h

theorem LoadedFrom.nodup (L : LoadedFrom secs st td) : (Dict.keys td).Nodup := by
  rw [L.keys]; exact L.numbers

theorem LoadedFrom.rows (L : LoadedFrom secs st td) {t : Int} {rows : List Row}
    (h : TableOf td t rows) : ∃ s ∈ secs, t = s.train ∧ rows.map (·.toRawRow) = s.rows := by
  obtain ⟨info, hm⟩ := h.mem
  obtain ⟨s, hs, h1, -, h3⟩ := L.entry _ hm
  exact ⟨s, hs, h1, h3⟩

theorem LoadedFrom.section (L : LoadedFrom secs st td) {s : Section} (hs : s ∈ secs) :
    ∃ rows, TableOf td s.train rows ∧ rows.map (·.toRawRow) = s.rows := by
  have : s.train ∈ Dict.keys td := by rw [L.keys]; exact List.mem_map.2 ⟨s, hs, rfl⟩
  obtain ⟨e, he, e1⟩ := List.mem_map.1 this
  have ht := TableOf.of_mem L.nodup he
  obtain ⟨s', hs', h1, h2⟩ := L.rows ht
  have : s' = s := List.inj_on_of_nodup_map L.numbers hs' hs (by rw [← h1, e1])
  exact ⟨_, e1 ▸ ht, this ▸ h2⟩

/-- the station of a row -/
theorem LoadedFrom.station (L : LoadedFrom secs st td) {t : Int} {rows : List Row}
    (h : TableOf td t rows) {r : Row} (hr : r ∈ rows) {x : String} :
    r.station = some x ↔ BelongsTo st r.path x := by
  obtain ⟨info, hm⟩ := h.mem
  exact L.tagged _ hm r hr x

theorem LoadedFrom.inStation (L : LoadedFrom secs st td) {t : Int} {rows : List Row}
    (h : TableOf td t rows) {r : Row} (hr : r ∈ rows) : r.station ≠ none ↔ InStation st r.path := by
  rw [Option.ne_none_iff_exists']
  exact exists_congr fun x => L.station h hr

/-- rows that follow each other -/
theorem follows_of_split {rows pre post : List Row} {r0 r1 : Row} {raw : List RawRow}
    (he : rows.map (·.toRawRow) = raw) (h : rows = pre ++ r0 :: r1 :: post) :
    Follows raw r0.toRawRow r1.toRawRow := by
  subst he h
  exact ⟨pre.map (·.toRawRow), post.map (·.toRawRow), by simp⟩

theorem split_of_follows {rows : List Row} {a b : RawRow} {raw : List RawRow}
    (he : rows.map (·.toRawRow) = raw) (h : Follows raw a b) :
    ∃ pre r0 r1 post, rows = pre ++ r0 :: r1 :: post ∧ r0.toRawRow = a ∧ r1.toRawRow = b := by
  obtain ⟨pre, post, e⟩ := h
  rw [e] at he
  obtain ⟨l1, l2, rfl, -, h2⟩ := List.map_eq_append_iff.1 he
  obtain ⟨r0, l3, rfl, h3, h4⟩ := List.map_eq_cons_iff.1 h2
  obtain ⟨r1, l4, rfl, h5, -⟩ := List.map_eq_cons_iff.1 h4
  exact ⟨l1, r0, r1, l4, rfl, h3, h5⟩

theorem raw_mem {rows : List Row} {raw : List RawRow} (he : rows.map (·.toRawRow) = raw) {r : Row}
    (hr : r ∈ rows) : r.toRawRow ∈ raw := he ▸ List.mem_map.2 ⟨r, hr, rfl⟩

theorem raw_paths {rows : List Row} {raw : List RawRow} (he : rows.map (·.toRawRow) = raw) :
    rows.map (·.path) = raw.map (·.path) := by
  rw [← he, List.map_map]; rfl

theorem GoodSheet.wfTrains (G : GoodSheet secs st table t1) (L : LoadedFrom secs st td) :
    WfTrains td where
  keys := L.nodup
  blocks := by
    intro e he
    obtain ⟨s, hs, -, -, h3⟩ := L.entry e he
    unfold BlocksOnce
    rw [raw_paths h3]
    exact G.blocks s hs
  once := by
    intro e he
    have ht := TableOf.of_mem L.nodup he
    obtain ⟨s, hs, -, -, h3⟩ := L.entry e he
    have hp : (e.2.2.map (·.path)).Nodup := by rw [raw_paths h3]; exact G.blocks s hs
    unfold OnceEach List.Nodup
    rw [List.pairwise_filterMap]
    refine ((List.pairwise_map.1 hp).imp_of_mem ?_)
    intro a b ha hb hab x hx y hy hxy
    subst hxy
    exact hab (G.once s hs _ (raw_mem h3 ha) _ (raw_mem h3 hb) x ((L.station ht ha).1 hx)
      ((L.station ht hb).1 hy))

theorem GoodSheet.goodData (G : GoodSheet secs st table t1) (L : LoadedFrom secs st td) :
    GoodData td st where
  trains := G.wfTrains L
  stations := G.stations
  tagged := L.tagged
  names := fun e he => ⟨(G.names e he).1, (G.names e he).2.2.1⟩

theorem LoadedFrom.last (L : LoadedFrom secs st td) {t : Int} {b : String} (h : LastBlock td t b) :
    ∃ s ∈ secs, t = s.train ∧ (s.rows.map (·.path)).getLast? = some b := by
  obtain ⟨rows, r, ht, hl, rfl⟩ := h
  obtain ⟨s, hs, e, h3⟩ := L.rows ht
  exact ⟨s, hs, e, by rw [← raw_paths h3, List.getLast?_map, hl]; rfl⟩

theorem LoadedFrom.first (L : LoadedFrom secs st td) {t : Int} {b : String} (h : FirstBlock td t b) :
    ∃ s ∈ secs, t = s.train ∧ (s.rows.map (·.path)).head? = some b := by
  obtain ⟨rows, r, ht, hl, rfl⟩ := h
  obtain ⟨s, hs, e, h3⟩ := L.rows ht
  exact ⟨s, hs, e, by rw [← raw_paths h3, List.head?_map, hl]; rfl⟩

/-- trains that meet are sections that hand over -/
theorem LoadedFrom.handsOver (L : LoadedFrom secs st td) {t t' : Int} {b : String}
    (hp : t = 10 * t' + 9 ∨ t' = 10 * t + 9) (h : Meets td t t' b) :
    ∃ s ∈ secs, ∃ s' ∈ secs, t = s.train ∧ t' = s'.train ∧ HandsOver s s' b := by
  obtain ⟨s, hs, e, h1⟩ := L.last h.1
  obtain ⟨s', hs', e', h2⟩ := L.first h.2
  exact ⟨s, hs, s', hs', e, e', by rw [← e, ← e']; exact hp, h1, h2⟩

theorem LoadedFrom.meets (L : LoadedFrom secs st td) {s s' : Section} (hs : s ∈ secs)
    (hs' : s' ∈ secs) {b : String} (h : HandsOver s s' b) : Meets td s.train s'.train b := by
  obtain ⟨rows, ht, h3⟩ := L.section hs
  obtain ⟨rows', ht', h3'⟩ := L.section hs'
  obtain ⟨-, h1, h2⟩ := h
  rw [← raw_paths h3, List.getLast?_map] at h1
  rw [← raw_paths h3', List.head?_map] at h2
  obtain ⟨r, hr, e⟩ := Option.map_eq_some_iff.1 h1
  obtain ⟨r', hr', e'⟩ := Option.map_eq_some_iff.1 h2
  exact ⟨⟨rows, r, ht, hr, e⟩, ⟨rows', r', ht', hr', e'⟩⟩

theorem GoodSheet.readable (G : GoodSheet secs st table t1) (L : LoadedFrom secs st td) :
    ReadableData td st table t1 where
  start := G.start
  times := by
    intro t rows ht row hr hs x hx
    obtain ⟨s, hs', -, h3⟩ := L.rows ht
    exact G.times s hs' _ (raw_mem h3 hr) ((L.inStation ht hr).1 hs) x hx
  types := by
    intro e he
    obtain ⟨s, hs, -, h2, -⟩ := L.entry e he
    exact ⟨s.type.path, _, h2, G.types s hs⟩
  leaves := by
    intro t ht
    obtain ⟨e, he, rfl⟩ := List.mem_map.1 ht
    have ht := TableOf.of_mem L.nodup he
    obtain ⟨s, hs, -, -, h3⟩ := L.entry e he
    obtain ⟨a, b, hf, x, hx⟩ := G.leaves s hs
    obtain ⟨pre, r0, r1, post, e1, rfl, rfl⟩ := split_of_follows h3 hf
    have hr : r0 ∈ e.2.2 := by rw [e1]; simp
    refine ⟨x, r0, e.2.2, ht, hr, (L.station ht hr).2 hx, ?_⟩
    intro hl
    have hn : (e.2.2.map (·.path)).Nodup := by rw [raw_paths h3]; exact G.blocks s hs
    rw [e1] at hn hl
    have hl2 : (r1 :: post).getLast? = some r0 := by
      rw [← hl, List.getLast?_append, List.getLast?_cons_cons]
      cases h : (r1 :: post).getLast? with
      | none => simp at h
      | some z => rfl
    have hm := List.mem_of_getLast? hl2
    rw [List.map_append, List.map_cons] at hn
    exact (List.nodup_cons.1 (List.nodup_append.1 hn).2.1).1 (List.mem_map.2 ⟨r0, hm, rfl⟩)
  switches := by
    rintro a b ⟨t, rows, pre, r0, r1, post, ht, e, rfl, rfl, hst⟩ row hrow hj
    obtain ⟨s, hs, -, h3⟩ := L.rows ht
    refine G.switches s hs _ _ (follows_of_split h3 e) ?_ row hrow hj
    rcases hst with h | h
    · exact .inl ((L.inStation ht (by rw [e]; simp)).1 h)
    · exact .inr ((L.inStation ht (by rw [e]; simp)).1 h)
  meet := by
    intro n hn hn'
    rw [L.keys] at hn hn'
    obtain ⟨s, hs, rfl⟩ := List.mem_map.1 hn
    obtain ⟨s', hs', e⟩ := List.mem_map.1 hn'
    obtain ⟨b, hb⟩ := G.meet s hs s' hs' e
    rw [← e]
    exact ⟨b, hb.imp (L.meets hs hs') (L.meets hs' hs)⟩
  place := by
    intro n _ _ b hb
    rcases hb with hb | hb
    · obtain ⟨s, hs, s', hs', -, -, h⟩ := L.handsOver (.inr rfl) hb
      exact (G.place s hs s' hs' b h).1
    · obtain ⟨s, hs, s', hs', -, -, h⟩ := L.handsOver (.inl rfl) hb
      exact (G.place s hs s' hs' b h).1

theorem GoodSheet.turnaround (G : GoodSheet secs st table t1) (L : LoadedFrom secs st td) :
    TurnaroundOK td := by
  intro x y b hp hm rows row ht hh
  obtain ⟨s, hs, s', hs', -, e', h⟩ := L.handsOver hp hm
  obtain ⟨s2, hs2, e2, h3⟩ := L.rows ht
  have : s2 = s' := List.inj_on_of_nodup_map L.numbers hs2 hs' (by rw [← e2, e'])
  subst this
  exact (G.place s hs s2 hs' b h).2 _ (by rw [← h3, List.head?_map, hh]; rfl)

theorem intOf_nonneg (x : String) : 0 ≤ intOf x := by unfold intOf; omega

theorem GoodSheet.namesClear (G : GoodSheet secs st table t1) (L : LoadedFrom secs st td) :
    NamesClear td st where
  trains := by
    intro t ht
    rw [L.keys] at ht
    obtain ⟨s, -, rfl⟩ := List.mem_map.1 ht
    exact intOf_nonneg _
  stations := fun e he => ⟨(G.names e he).2.2.2, (G.names e he).2.1⟩

theorem LoadedFrom.leadsTo (L : LoadedFrom secs st td) {t : Int} {rows m : List Row}
    {raw : List RawRow} {x x2 : String} (ht : TableOf td t rows) (h3 : rows.map (·.toRawRow) = raw)
    (h : Consecutive rows x x2 m) : LeadsTo st raw x x2 (m.map (·.toRawRow)) := by
  obtain ⟨pre, r1, r2, post, e, h1, h2, hm⟩ := h
  refine ⟨pre.map (·.toRawRow), r1.toRawRow, r2.toRawRow, post.map (·.toRawRow), ?_, ?_, ?_, ?_⟩
  · rw [← h3, e]; simp
  · exact (L.station ht (by rw [e]; simp)).1 h1
  · exact (L.station ht (by rw [e]; simp)).1 h2
  · intro a ha
    obtain ⟨r, hr, rfl⟩ := List.mem_map.1 ha
    intro hs
    exact (L.inStation ht (by rw [e]; simp [hr])).2 hs (hm r hr)

theorem GoodSheet.linesClear (G : GoodSheet secs st table t1) (L : LoadedFrom secs st td) :
    LinesClear td := by
  rintro x x2 t t' bl bl' ⟨rows, m, ht, hc, rfl⟩ ⟨rows', m', ht', hc', rfl⟩ hsub
  obtain ⟨s, hs, -, h3⟩ := L.rows ht
  obtain ⟨s', hs', -, h3'⟩ := L.rows ht'
  have := G.lines s hs s' hs' x x2 _ _ (L.leadsTo ht h3 hc) (L.leadsTo ht' h3' hc') (by
    intro a ha
    obtain ⟨r, hr, rfl⟩ := List.mem_map.1 ha
    rw [List.map_map]
    exact hsub _ (List.mem_map.2 ⟨r, hr, rfl⟩))
  rw [List.map_map, List.map_map] at this
  exact this

/-- C63 for any sheet that is read as a good one -/
theorem C63_data (G : GoodSheet secs st table t1) {data : List RawRow}
    (h0 : timetableToTrainDict data = .ok (secs.map fun s => (s.train, (s.info, s.rows)))) :
    ∃ td, buildTimetables data st table = .ok td ∧ LoadedFrom secs st td ∧
      ∀ (r : Int) (delays : List (Int × ℚ)) (dmax : ℚ) (cat : Cat), dmax ≠ 0 →
        ∃ ts tt b, makeInput td st table t1 r delays = .ok (ts, tt) ∧
          buildProblem ts tt dmax cat = .ok b := by
  obtain ⟨td, h1, h2⟩ := G.load h0
  have L := G.loaded h2
  exact ⟨td, h1, L, fun r delays dmax cat hd => C56_problem (G.goodData L) (G.readable L)
    (G.turnaround L) (G.namesClear L) (G.linesClear L) hd r cat delays⟩

/-- **C63.** From a good sheet, whatever the delays, the rounding and the category of the variables,
the timetables, the input and the problem are built: no exception is raised. The timetables have
exactly the trains and rows of the sheet. -/
theorem C63_sheet (G : GoodSheet secs st table t1) :
    ∃ td, buildTimetables (sheetOf secs) st table = .ok td ∧ LoadedFrom secs st td ∧
      ∀ (r : Int) (delays : List (Int × ℚ)) (dmax : ℚ) (cat : Cat), dmax ≠ 0 →
        ∃ ts tt b, makeInput td st table t1 r delays = .ok (ts, tt) ∧
          buildProblem ts tt dmax cat = .ok b :=
  C63_data G (C42_sheet_partial secs G.sections G.numbers)

end Verif
