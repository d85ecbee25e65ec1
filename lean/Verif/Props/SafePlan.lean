import Verif.Props.Stays
import Verif.Props.Sheets
import Verif.Props.Generated

/-!
# C66: what every feasible plan of a sheet guarantees

The guarantees C48 and C57 to C62 put together, for the trains of a whole sheet. The conditions are on
the rows of the sheet and of the path table.
-/

namespace Verif

variable {td : Trains} {st : Stations} {table : List PathRow} {t1 : String} {r : Int}
  {delays : List (Int × ℚ)} {ts : TrainSets} {tt : Timetable} {dmax : ℚ} {cat : Cat} {b : Built}
  {σ : LpVar → ℚ}

/-- the blocks of `KO` that the code leaves out -/
def blocksLeftOut : List String :=
  ["\"KO\", \"ST-M\", 1114, \"(N/A)\"", "\"KO\", \"ST-M\", 1113, \"(N/A)\"",
    "\"KO\", \"ST-M\", 1118, \"(N/A)\""]

/-- Trains `t` and `t'` share a track of `x`: they have a common block there, which is not one of
those that the code leaves out; rows `q` and `q'`. -/
structure ShareTrack (td : Trains) (t t' : Int) (x : String) (q q' : Row) : Prop where
  other : t ≠ t'
  stock : ¬ Paired t t'
  row : ∃ rows, TableOf td t rows ∧ q ∈ rows
  row' : ∃ rows, TableOf td t' rows ∧ q' ∈ rows
  here : q.station = some x
  here' : q'.station = some x
  same : q.path = q'.path
  station : x ∉ ["KO(KS)", "KO(IC)"]
  block : q.path ∉ blocksLeftOut

/-- The guarantees. `D t x d` means that train `t` departs from station `x` at time `d`. -/
structure SafePlan (td : Trains) (st : Stations) (table : List PathRow) (t1 : String) (r : Int)
    (delays : List (Int × ℚ)) (D : Val → Val → ℚ → Prop) : Prop where
  /-- every train has exactly one departure time from each station that it leaves, and from no
  other -/
  departs : ∀ t x, (∃ d, D (.int t) (.str x) d) ↔
    (∃ rows, TableOf td t rows ∧ Serves rows x) ∧ ¬ EndsIn td st t x
  unique : ∀ j s d d', D j s d → D j s d' → d = d'
  /-- trains do not leave before the departure times of their tables, and have the time for the runs
  and the stops -/
  early : ∀ t x d rows, D (.int t) (.str x) d → TableOf td t rows →
    ∀ dep v, FirstDep rows x dep → MinutesFrom t1 dep v → v ≤ d
  runs : ∀ t p x d rows m q, D (.int t) (.str x) d → TableOf td t rows → Consecutive rows p x m →
    q ∈ rows → q.station = some x → ∃ d0, D (.int t) (.str p) d0 ∧
      d0 + roundIf r (timesOf m).sum + roundIf r (q.passingTime.getD 0) ≤ d
  /-- delayed trains start late -/
  late : (∀ e ∈ delays, 0 ≤ e.2) → ∀ t x d rows row v, D (.int t) (.str x) d → TableOf td t rows →
    FirstStation rows x row → InitialTime t1 row v → v + delayOf delays t ≤ d
  /-- rolling stock is handed over after the turnaround time -/
  stock : ∀ t t' p x rows rows' m bl q v d d', TableOf td t rows → TableOf td t' rows' →
    Paired t t' → Meets td t t' bl → (∀ c, ¬ Meets td t' t c) → BelongsTo st bl x →
    Consecutive rows p x m → rows'.head? = some q → q.turnaround = some v →
    D (.int t) (.str p) d → D (.int t') (.str x) d' → d + roundIf r (timesOf m).sum + v ≤ d'
  /-- trains one after the other keep the blocks apart -/
  following : ∀ t t' x x2 rows rows' m m' d d', t ≠ t' → TableOf td t rows → TableOf td t' rows' →
    Consecutive rows x x2 m → Consecutive rows' x x2 m' → m.map (·.path) = m'.map (·.path) →
    D (.int t) (.str x) d → D (.int t') (.str x) d' →
    BlocksApart (if r = 1 then 1 / 2 else 0) (headwayK x x2) d (timesOf m) d' (timesOf m') ∨
    BlocksApart (if r = 1 then 1 / 2 else 0) (headwayK x x2) d' (timesOf m') d (timesOf m)
  /-- of trains against each other one waits for the other -/
  opposite : ∀ t t' x x2 rows rows' m m' d d', ¬ Paired t t' → TableOf td t rows →
    TableOf td t' rows' → Consecutive rows x x2 m → Consecutive rows' x2 x m' →
    m.map (·.path) = (m'.map (·.path)).reverse → m ≠ [] →
    D (.int t) (.str x) d → D (.int t') (.str x2) d' →
    d + roundIf r (timesOf m).sum ≤ d' ∨ d' + roundIf r (timesOf m').sum ≤ d
  /-- a track of a station is free before the next train comes -/
  tracks : ∀ t t' x q q' a a' d d', ShareTrack td t t' x q q' →
    ¬ NameInside td st t x → ¬ NameInside td st t' x →
    InStationFor td st r D t x a d → InStationFor td st r D t' x a' d' → d ≤ a' ∨ d' ≤ a
  /-- trains that come over the same line to the same track keep their order -/
  order : ∀ t t' p x q q' rows rows' m m' dp dp' d d', ShareTrack td t t' x q q' →
    ¬ NameInside td st t x → ¬ NameInside td st t' x →
    TableOf td t rows → TableOf td t' rows' → Consecutive rows p x m → Consecutive rows' p x m' →
    m.map (·.path) = m'.map (·.path) →
    0 < roundIf r (q.passingTime.getD 0) → 0 < roundIf r (q'.passingTime.getD 0) →
    D (.int t) (.str p) dp → D (.int t') (.str p) dp' → D (.int t) (.str x) d →
    D (.int t') (.str x) d' → dp < dp' → d < d'
  /-- trains do not pass a switch together -/
  switches : ∀ t t' x a a' S S' z c c', t ≠ t' → ¬ Paired t t' → x ∉ ["KO(IC)", "KO(KS)"] →
    (x = "KO(STM)" → ¬ ToOrFromKO td t a ∧ ¬ ToOrFromKO td t' a') →
    SwitchesAt td table t x a S → SwitchesAt td table t' x a' S' → z ∈ S → z ∈ S' →
    PassesSwitches td r D x t a c → PassesSwitches td r D x t' a' c' → c + 1 ≤ c' ∨ c' + 1 ≤ c

/-- of two trains against each other one goes on -/
def OppositeGoOn (td : Trains) (st : Stations) : Prop :=
  ∀ x x2 t t', Opposite td x x2 t t' → GoesOn td st x x2 t' ∨ GoesOn td st x2 x t

/-- passing times are not negative -/
def TimesOK (td : Trains) : Prop := ∀ e ∈ td, ∀ q ∈ e.2.2, 0 ≤ q.passingTime.getD 0

theorem Departs.unique {dv : DelayVars} {j s : Val} {d d' : ℚ} (h : Departs ts tt dv σ j s d)
    (h' : Departs ts tt dv σ j s d') : d = d' := by
  obtain ⟨e, v, h1, h2, rfl⟩ := h
  obtain ⟨e', v', h1', h2', rfl⟩ := h'
  rw [h1] at h1'
  rw [h2] at h2'
  cases h1'
  cases h2'
  rfl

theorem timesOf_nonneg (hp : TimesOK td) {t : Int} {rows m : List Row} (ht : TableOf td t rows)
    {x x2 : String} (hc : Consecutive rows x x2 m) : ∀ w ∈ timesOf m, 0 ≤ w := by
  intro w hw
  obtain ⟨q, hq, rfl⟩ := List.mem_map.1 hw
  obtain ⟨info, hm⟩ := ht.mem
  obtain ⟨pre, r1, r2, post, e, -⟩ := hc
  exact hp _ hm q (by simp only [e]; simp [hq])

/-- C66 for the tables of the trains -/
theorem C66_trains (G : GoodData td st) (hm : AllMeet td) (hgo : OppositeGoOn td st)
    (hcells : SameCells table) (hp : TimesOK td)
    (h : makeInput td st table t1 r delays = .ok (ts, tt))
    (hb : buildProblem ts tt dmax cat = .ok b) (hf : Feasible b σ) :
    SafePlan td st table t1 r delays (Departs ts tt b.dv σ) where
  departs := by
    intro t x
    have g := gen_of_input G h
    rw [← leaves_iff G]
    constructor
    · rintro ⟨d, hd⟩
      exact g.departs_leaves hb hd
    · intro hl
      obtain ⟨e, he⟩ := g.edt hl
      obtain ⟨v, hv⟩ := g.delayAt hm (parts hb).hdv hl
      exact ⟨_, e, v, he, hv, rfl⟩
  unique := fun j s d d' h h' => h.unique h'
  early := fun t x d rows hd ht => (C61_timetable G h hb hf ht hd).1
  runs := fun t p x d rows m q hd ht hc hq hs => (C61_timetable G h hb hf ht hd).2 p m q hc hq hs
  late := fun hpos t x d rows row v hd ht hfs hv => C61_late G h hb hf hpos ht hfs hv hd
  stock := fun t t' p x rows rows' m bl q v d d' ht ht' hst hmeet hone hbl hc hq hv hd hd' =>
    C59_stock G h hm hb hf ht ht' hst hmeet hone hbl hc hq hv hd hd'
  following := fun t t' x x2 rows rows' m m' d d' hne ht ht' hc hc' hs hd hd' =>
    C48_blocks G h hb hf hne ht ht' hc hc' hs hd hd'
  opposite := fun t t' x x2 rows rows' m m' d d' hst ht ht' hc hc' hs hne hd hd' =>
    C57_opposite_partial G h hm hb hf ht ht' hc hc' hs hne hst
      (hgo x x2 t t' ⟨_, by simpa using hne, Runs.of ht hc, by
        rw [hs, List.reverse_reverse]; exact Runs.of ht' hc'⟩) hd hd'
  tracks := by
    rintro t t' x q q' a a' d d' ⟨hne, hst, ⟨rows, ht, hq⟩, ⟨rows', ht', hq'⟩, hs, hs', hsame, hx,
      hbl⟩ hin hin' hd hd'
    exact C58_stays_partial G h hm hb hf hne ht ht' hq hq' hs hs' hsame hx hbl hst hin hin' hd hd'
  order := by
    rintro t t' p x q q' rows rows' m m' dp dp' d d' ⟨hne, hst, ⟨r1, ht, hq⟩, ⟨r2, ht', hq'⟩, hs, hs',
      hsame, hx, hbl⟩ hin hin' ht2 ht2' hc hc' hl h0 h0' hdp hdp' hd hd'
    have g := gen_of_input G h
    cases ht.unique ht2
    cases ht'.unique ht2'
    refine (C62_order_partial G h hm hb hf hne ht ht' hc hc' hl ?_ hq hq' hs hs' hsame ⟨h0, h0'⟩ hx hbl
      hst (g.departs_stays hb hd hin) (g.departs_stays hb hd' hin') hdp hdp' hd hd').1
    intro w hw
    rcases List.mem_append.1 hw with hw | hw
    · exact timesOf_nonneg hp ht hc w hw
    · exact timesOf_nonneg hp ht' hc' w hw
  switches := fun t t' x a a' S S' z c c' hne hst hx hko hS hS' hz hz' hp hp' =>
    C60_switches_partial G h hm hb hf hcells hne hx hko hS hS' hz hz' hst hp hp'

/-! ## Conditions on the sheet -/

/-- the last block of the section belongs to the station -/
def SectionEnds (st : Stations) (s : Section) (x : String) : Prop :=
  ∃ bl, (s.rows.map (·.path)).getLast? = some bl ∧ BelongsTo st bl x

/-- the sections run in opposite directions over the same blocks, at least one -/
def SectionsOpposite (st : Stations) (s s' : Section) (x x2 : String) : Prop :=
  ∃ m m', LeadsTo st s.rows x x2 m ∧ LeadsTo st s'.rows x2 x m' ∧ m ≠ [] ∧
    m.map (·.path) = (m'.map (·.path)).reverse

/-- like `GoesOn` -/
def SectionGoesOn (secs : List Section) (st : Stations) (x x2 : String) (s' : Section) : Prop :=
  ¬ SectionEnds st s' x ∧ (¬ Before (Dict.keys st) x2 x ∨
    ∀ i ∈ secs, ∀ i' ∈ secs, SectionsOpposite st i i' x x2 → SectionEnds st i x2)

/-- Further conditions on a sheet and a path table: of two trains against each other on a single line
one goes on at the other end (see `GoesOn`), rows for the same blocks have the same switches, and
passing times are not negative. -/
structure SafeSheet (secs : List Section) (st : Stations) (table : List PathRow) : Prop where
  opposite : ∀ s ∈ secs, ∀ s' ∈ secs, ∀ x x2, SectionsOpposite st s s' x x2 →
    SectionGoesOn secs st x x2 s' ∨ SectionGoesOn secs st x2 x s
  cells : SameCells table
  times : ∀ row ∈ table, ∀ v, (row.rAB = some v ∨ row.rBA = some v ∨ row.icAB = some v ∨
    row.icBA = some v) → 0 ≤ v

variable {secs : List Section}

theorem LoadedFrom.ends (L : LoadedFrom secs st td) {s : Section} (hs : s ∈ secs) {x : String} :
    EndsIn td st s.train x ↔ SectionEnds st s x := by
  obtain ⟨rows, ht, he⟩ := L.section hs
  have hl : (s.rows.map (·.path)).getLast? = rows.getLast?.map (·.path) := by
    rw [← raw_paths he, List.getLast?_map]
  unfold SectionEnds
  rw [hl]
  constructor
  · rintro ⟨rows', q, ht', h1, h2⟩
    cases ht.unique ht'
    exact ⟨_, by rw [h1]; rfl, h2⟩
  · rintro ⟨bl, h1, h2⟩
    cases h : rows.getLast? with
    | none => rw [h] at h1; cases h1
    | some q =>
      rw [h] at h1
      cases h1
      exact ⟨rows, q, ht, h, h2⟩

theorem LoadedFrom.opposite (L : LoadedFrom secs st td) {x x2 : String} {t t' : Int}
    (h : Opposite td x x2 t t') : ∃ s ∈ secs, ∃ s' ∈ secs, t = s.train ∧ t' = s'.train ∧
      SectionsOpposite st s s' x x2 := by
  obtain ⟨bl, hne, ⟨rows, m, ht, hc, e⟩, rows', m', ht', hc', e'⟩ := h
  obtain ⟨s, hs, h1, h2⟩ := L.rows ht
  obtain ⟨s', hs', h1', h2'⟩ := L.rows ht'
  refine ⟨s, hs, s', hs', h1, h1', _, _, L.leadsTo ht h2 hc, L.leadsTo ht' h2' hc', ?_, ?_⟩
  · intro h0
    apply hne
    rw [e, List.map_eq_nil_iff.1 h0]
    rfl
  · simp only [List.map_map]
    show m.map (·.path) = (m'.map (·.path)).reverse
    rw [← e, ← e', List.reverse_reverse]

theorem SafeSheet.goOn (S : SafeSheet secs st table) (L : LoadedFrom secs st td) :
    OppositeGoOn td st := by
  have key : ∀ {x x2 : String} {s : Section}, s ∈ secs → SectionGoesOn secs st x x2 s →
      GoesOn td st x x2 s.train := by
    intro x x2 s hs h
    refine ⟨fun h0 => h.1 ((L.ends hs).1 h0), h.2.imp id ?_⟩
    intro h2 i i' ho
    obtain ⟨s1, hs1, s2, hs2, rfl, rfl, ho2⟩ := L.opposite ho
    exact (L.ends hs1).2 (h2 s1 hs1 s2 hs2 ho2)
  intro x x2 t t' ho
  obtain ⟨s, hs, s', hs', rfl, rfl, ho2⟩ := L.opposite ho
  exact (S.opposite s hs s' hs' x x2 ho2).imp (key hs') (key hs)

theorem singlePassingTime_nonneg (h : ∀ row ∈ table, ∀ v, (row.rAB = some v ∨ row.rBA = some v ∨
    row.icAB = some v ∨ row.icBA = some v) → 0 ≤ v) {v1 v2 : String} {sp : Option String}
    {v : Option ℚ} (hv : singlePassingTime table v1 v2 sp = .ok v) : 0 ≤ v.getD 0 := by
  have key : ∀ row ∈ table, ∀ ab, pathTime sp ab row = .ok v → 0 ≤ v.getD 0 := by
    intro row hr ab he
    cases v with
    | none => exact le_refl _
    | some w =>
      apply h row hr w
      unfold pathTime at he
      cases ab <;> split at he <;> try split at he
      all_goals simp_all
  unfold singlePassingTime at hv
  simp only at hv
  split at hv
  · cases hv
  · rename_i first l hl
    have : first ∈ table := (List.mem_filter.1 (hl ▸ List.mem_cons_self)).1
    split at hv
    · exact key _ this _ hv
    · split at hv
      · exact key _ this _ hv
      · cases hv

theorem SafeSheet.timesOK (S : SafeSheet secs st table)
    (h : updateAllTimetables table st (secs.map fun s => (s.train, (s.info, s.rows))) = .ok td) :
    TimesOK td := by
  intro e he q hq
  obtain ⟨e0, he0, h1, h2, h3⟩ := forall₂_right (updateAll_forall₂ h) he
  obtain ⟨ts, h4, h5⟩ := bind_ok h3
  simp only [Except.ok.injEq] at h5
  rw [← h5] at hq
  obtain ⟨x, hx, rfl⟩ := List.mem_map.1 hq
  obtain ⟨us, h6, h7⟩ := bind_ok h4
  simp only [Except.ok.injEq] at h7
  have hx2 := (List.of_mem_zip hx).2
  rw [← h7] at hx2
  rcases List.mem_append.1 hx2 with hx2 | hx2
  · obtain ⟨a, -, ha⟩ := forall₂_right (mapPy_forall₂ h6) hx2
    exact singlePassingTime_nonneg S.times ha
  · simp only [List.mem_singleton] at hx2
    show 0 ≤ x.2.getD 0
    rw [hx2]
    exact le_refl _

/-- C66 for any sheet that is read as a good one -/
theorem C66_data (G : GoodSheet secs st table t1) (S : SafeSheet secs st table) {data : List RawRow}
    (h0 : timetableToTrainDict data = .ok (secs.map fun s => (s.train, (s.info, s.rows)))) :
    ∃ td, buildTimetables data st table = .ok td ∧ LoadedFrom secs st td ∧
      ∀ r delays dmax cat ts tt b σ, makeInput td st table t1 r delays = .ok (ts, tt) →
        buildProblem ts tt dmax cat = .ok b → Feasible b σ →
        SafePlan td st table t1 r delays (Departs ts tt b.dv σ) := by
  obtain ⟨td, h1, h2⟩ := G.load h0
  have L := G.loaded h2
  exact ⟨td, h1, L, fun r delays dmax cat ts tt b σ h hb hf => C66_trains (G.goodData L)
    (G.readable L).meet (S.goOn L) S.cells (S.timesOK h2) h hb hf⟩

/-- **C66.** From a sheet that is good and safe, whatever the delays, the rounding and the category of
the variables, every feasible plan of the problem has the guarantees of `SafePlan`. -/
theorem C66_sheet (G : GoodSheet secs st table t1) (S : SafeSheet secs st table) :
    ∃ td, buildTimetables (sheetOf secs) st table = .ok td ∧ LoadedFrom secs st td ∧
      ∀ r delays dmax cat ts tt b σ, makeInput td st table t1 r delays = .ok (ts, tt) →
        buildProblem ts tt dmax cat = .ok b → Feasible b σ →
        SafePlan td st table t1 r delays (Departs ts tt b.dv σ) :=
  C66_data G S (C42_sheet_partial secs G.sections G.numbers)

end Verif
