import Verif.Model.Top
import Verif.Props.Rules
import Verif.Props.Rules2
import Verif.Props.Edt
import Verif.Props.Delay
import Verif.Props.TausTable
import Verif.Props.Single
import Verif.Props.Tracks
import Verif.Props.Switches
import Verif.Props.Round
import Verif.Props.Weights
import Verif.Props.Tables

/-!
# What is known about the input that the scripts generate
-/

namespace Verif

/-- Tables as assumed below: no train twice, in every timetable no block and no station twice, no
block in two stations, the column of stations right, station names not empty and without
underscores. -/
structure GoodData (td : Trains) (st : Stations) : Prop where
  trains : WfTrains td
  stations : WfStations st
  tagged : Tagged st td
  names : ∀ e ∈ st, e.1 ≠ "" ∧ Plain (.str e.1)

theorem GoodData.station {td : Trains} {st : Stations} (G : GoodData td st) {t : Int}
    {rows : List Row} (ht : TableOf td t rows) {r : Row} (hr : r ∈ rows) {s : String}
    (hs : r.station = some s) : ∃ bs, (s, bs) ∈ st ∧ r.path ∈ bs := by
  obtain ⟨info, hm⟩ := ht.mem
  exact (G.tagged _ hm r hr s).1 hs

theorem GoodData.tableNames {td : Trains} {st : Stations} (G : GoodData td st) :
    StationNamesOK td := by
  intro e he r hr s hs
  obtain ⟨bs, hb, -⟩ := G.station (TableOf.of_mem G.trains.keys he) hr hs
  exact G.names _ hb

section Maps
variable {K V K' V' : Type} [DecidableEq K] [DecidableEq K']

theorem get?_map_key {f : K → K'} (hf : Function.Injective f) (g : V → V') (d : Dict K V) (k : K) :
    Dict.get? (d.map fun e => (f e.1, g e.2)) (f k) = (Dict.get? d k).map g := by
  induction d with
  | nil => rfl
  | cons p d ih =>
    simp only [List.map_cons, Dict.get?]
    by_cases h : p.1 = k
    · simp [h]
    · rw [if_neg (fun h' => h (hf h')), if_neg h, ih]

theorem get?_map_some {f : K → K'} (hf : Function.Injective f) (g : V → V') {d : Dict K V} {k' : K'}
    {v' : V'} (h : Dict.get? (d.map fun e => (f e.1, g e.2)) k' = some v') :
    ∃ k v, k' = f k ∧ v' = g v ∧ Dict.get? d k = some v := by
  obtain ⟨e, -, he⟩ := List.mem_map.1 (Dict.mem_of_get? h)
  have h1 : f e.1 = k' := congrArg Prod.fst he
  subst h1
  rw [get?_map_key hf] at h
  obtain ⟨v, hv, rfl⟩ := Option.map_eq_some_iff.1 h
  exact ⟨e.1, v, rfl, rfl, hv⟩

omit [DecidableEq K] [DecidableEq K'] in
theorem keys_map_key (f : K → K') (g : V → V') (d : Dict K V) :
    Dict.keys (d.map fun e => (f e.1, g e.2)) = (Dict.keys d).map f := by
  unfold Dict.keys; simp

end Maps

theorem intKey_inj : Function.Injective intKey := fun _ _ h => by cases h; rfl
theorem strKey_inj : Function.Injective strKey := fun _ _ h => by cases h; rfl

/-- the train leaves the station: it has a block of it that is not its last block -/
def Leaves (td : Trains) (t : Int) (s : String) : Prop := ∃ row, StopRow td t s row

variable {td : Trains} {st : Stations} {table : List PathRow} {t1 : String} {r : Int}
  {delays : List (Int × ℚ)} {ts : TrainSets} {tt : Timetable}

theorem leaves_iff (G : GoodData td st) {t : Int} {s : String} :
    Leaves td t s ↔ (∃ rows, TableOf td t rows ∧ Serves rows s) ∧ ¬ EndsIn td st t s := by
  constructor
  · rintro ⟨row, rows, ht, hr, hs, hl⟩
    refine ⟨⟨rows, ht, row, hr, hs⟩, ?_⟩
    rintro ⟨rows', r', ht', hl', hb⟩
    cases ht.unique ht'
    have hm := List.mem_of_getLast? hl'
    obtain ⟨info, hmem⟩ := ht.mem
    have hs' := (G.tagged _ hmem r' hm s).2 hb
    rw [once_unique (G.trains.table ht).1 hr hm hs hs'] at hl
    exact hl hl'
  · rintro ⟨⟨rows, ht, row, hr, hs⟩, hn⟩
    refine ⟨row, rows, ht, hr, hs, fun hl => hn ⟨rows, row, ht, hl, ?_⟩⟩
    obtain ⟨info, hmem⟩ := ht.mem
    exact (G.tagged _ hmem row hr s).1 hs

theorem endsIn_iff (G : GoodData td st) {t : Int} {s : String} :
    EndsIn td st t s ↔ ∃ rows r, TableOf td t rows ∧ rows.getLast? = some r ∧ r.station = some s := by
  constructor
  · rintro ⟨rows, r, ht, hl, hb⟩
    obtain ⟨info, hmem⟩ := ht.mem
    exact ⟨rows, r, ht, hl, (G.tagged _ hmem r (List.mem_of_getLast? hl) s).2 hb⟩
  · rintro ⟨rows, r, ht, hl, hb⟩
    obtain ⟨info, hmem⟩ := ht.mem
    exact ⟨rows, r, ht, hl, (G.tagged _ hmem r (List.mem_of_getLast? hl) s).1 hb⟩

theorem leaves_of_next (G : GoodData td st) {t : Int} {rows mid : List Row} {s s' : String}
    (ht : TableOf td t rows) (hc : Consecutive rows s s' mid) : Leaves td t s :=
  (leaves_iff G).2 ⟨⟨rows, ht, (consecutive_serves hc).1⟩,
    runs_not_ends G.tagged G.trains.once ⟨rows, mid, ht, hc, rfl⟩⟩

/-- what the scripts put into the train sets and the timetable -/
structure Gen (td : Trains) (st : Stations) (table : List PathRow) (t1 : String) (r : Int)
    (ts : TrainSets) (tt : Timetable) : Prop where
  data : GoodData td st
  J : ts.J = (Dict.keys td).map intKey
  paths : ts.paths = (getPaths td).map fun e => (intKey e.1, e.2.map strKey)
  skips : ∀ j s, Skips ts j s ↔ ∃ t x, j = .int t ∧ s = .str x ∧ EndsIn td st t x
  skipInt : ∀ d j x, ts.skipStation = some d → Dict.get? d j = some x → ∃ n, x = .str n
  noAdd : ts.addSwithes = none
  Jd : ∃ d, jd td st none = .ok d ∧
    ts.Jd = d.map fun e => (strKey e.1, e.2.map fun f => (strKey f.1, f.2.map (·.map intKey)))
  Josingle : ∃ o, josingle td st none = .ok o ∧
    ts.Josingle = o.map fun e =>
      ((strKey e.1.1, strKey e.1.2), e.2.map fun p => (intKey p.1, intKey p.2))
  Jround : ∃ o, getJround td st = .ok o ∧
    ts.Jround = o.map fun e => (strKey e.1, e.2.map fun p => (intKey p.1, intKey p.2))
  Jtrack : ∃ o, jtrack td st none = .ok o ∧
    ts.Jtrack = o.map fun e => (strKey e.1, e.2.map (·.map intKey))
  Jswitch : ∃ o, jswitch td st table none = .ok o ∧
    ts.Jswitch = o.map fun e => (strKey e.1, e.2.map fun x => x.map fun y => (intKey y.1, y.2))
  pass : ∀ t rows s s' mid, TableOf td t rows → Consecutive rows s s' mid →
    Pass tt (.int t) (.str s) (.str s') (roundIf r (timesOf mid).sum)
  stop : ∀ t s row, StopRow td t s row →
    Stop tt (.int t) (.str s) (roundIf r (row.passingTime.getD 0))
  headway : ∀ t t' rows rows' s s' m m', t ≠ t' → TableOf td t rows → TableOf td t' rows' →
    Consecutive rows s s' m → Consecutive rows' s s' m' →
    ∃ h, headwayTime rows rows' s s' r = .ok h ∧ Headway tt (.int t) (.int t') (.str s) (.str s') h
  prep : ∀ t s row v, StopRow td t s row → row.turnaround = some v → Prep tt (.int t) (.str s) v
  res : tt.tauRes = some 1
  init : ∀ t s, (∃ u, Dict.get? tt.initialConditions (key2 (.int t) (.str s)) = some u) ↔
    ∃ rows row, TableOf td t rows ∧ FirstStation rows s row
  sched : ∃ d, tt.schedule = some d ∧ ∀ t s v, Dict.get? d (key2 (.int t) (.str s)) = some v ↔
    ∃ rows dep, TableOf td t rows ∧ FirstDep rows s dep ∧ MinutesFrom t1 dep v
  weight : ∀ t s w, Dict.get? tt.penaltyWeights (key2 (.int t) (.str s)) = some w → Leaves td t s
  served : ∀ t rows, TableOf td t rows → ∃ s, Leaves td t s

theorem keys_addDelays (delays : List (Int × ℚ)) (ic : Dict String ℚ) :
    Dict.keys (delays.foldl (fun ic d => addDelay ic d.1 d.2) ic) = Dict.keys ic := by
  induction delays generalizing ic with
  | nil => rfl
  | cons d ds ih => rw [List.foldl_cons, ih, C39_keys]

theorem gen_of_input (G : GoodData td st) (h : makeInput td st table t1 r delays = .ok (ts, tt)) :
    Gen td st table t1 r ts tt := by
  unfold makeInput at h
  obtain ⟨skip, hskip, h⟩ := bind_ok h
  obtain ⟨ts', hts, h⟩ := bind_ok h
  obtain ⟨taus, htaus, h⟩ := bind_ok h
  obtain ⟨tt', htt, h⟩ := bind_ok h
  cases h
  unfold makeTrainSet at hts
  obtain ⟨d, hd, hts⟩ := bind_ok hts
  obtain ⟨o, ho, hts⟩ := bind_ok hts
  obtain ⟨rd, hrd, hts⟩ := bind_ok hts
  obtain ⟨tk, htk, hts⟩ := bind_ok hts
  obtain ⟨w, hw, hts⟩ := bind_ok hts
  cases hts
  unfold makeTaus at htaus
  obtain ⟨pass, hpass, htaus⟩ := bind_ok htaus
  obtain ⟨hwy, hhwy, htaus⟩ := bind_ok htaus
  obtain ⟨prep, hprep, htaus⟩ := bind_ok htaus
  obtain ⟨sp, hsp, htaus⟩ := bind_ok htaus
  cases htaus
  unfold makeTimetable at htt
  obtain ⟨ic, hic, htt⟩ := bind_ok htt
  obtain ⟨pw, hpw, htt⟩ := bind_ok htt
  obtain ⟨sc, hsc, htt⟩ := bind_ok htt
  cases htt
  have hsk := skip_get? hskip G.trains.keys
  obtain ⟨pass', hpass', hP⟩ := C35_pass td G.trains G.tableNames r
  rw [hpass] at hpass'; cases hpass'
  obtain ⟨hwy', hhwy', hH⟩ := C33_table td st G.trains G.tableNames G.stations.1.1 G.tagged r
  rw [hhwy] at hhwy'; cases hhwy'
  obtain ⟨stop, prp, hsp', hS, hPr⟩ := C36_computed td st G.trains G.stations G.tagged r
  rw [hsp] at hsp'; cases hsp'
  have hI := (C38_initial td G.trains.keys t1 ic hic).1
  have hSc := C38_schedule td G.trains.keys t1 sc hsc
  have hW := C40_computed td G.trains.keys G.trains.once skip _ _ _ _ pw hpw
  have hLast : ∀ t rows s, TableOf td t rows → LastServed (Dict.get? skip t) rows s →
      Leaves td t s := by
    rintro t rows s ht ⟨pre, row, post, rfl, hs, hne, -⟩
    rw [leaves_iff G]
    refine ⟨⟨_, ht, row, by simp, hs⟩, fun he => ?_⟩
    obtain ⟨rows', r', ht', hl', hs'⟩ := (endsIn_iff G).1 he
    exact hne ((hsk t s).2 ⟨rows', r', ht', hl', hs'⟩)
  refine ⟨G, rfl, rfl, ?_, ?_, rfl, ⟨d, hd, rfl⟩, ⟨o, ho, rfl⟩, ⟨rd, hrd, rfl⟩, ⟨tk, htk, rfl⟩,
    ⟨w, hw, rfl⟩, ?_, ?_, ?_, ?_, rfl, ?_, ⟨sc, rfl, ?_⟩, ?_, ?_⟩
  · intro j s
    constructor
    · rintro ⟨e, he, hj⟩
      cases he
      obtain ⟨t, x, rfl, rfl, hx⟩ := get?_map_some intKey_inj strKey hj
      exact ⟨t, x, rfl, rfl, (endsIn_iff G).2 ((hsk t x).1 hx)⟩
    · rintro ⟨t, x, rfl, rfl, hx⟩
      refine ⟨_, rfl, ?_⟩
      have := get?_map_key intKey_inj strKey skip t
      rw [(hsk t x).2 ((endsIn_iff G).1 hx)] at this
      exact this
  · intro e j x he hj
    cases he
    obtain ⟨t, y, -, rfl, -⟩ := get?_map_some intKey_inj strKey hj
    exact ⟨y, rfl⟩
  · intro t rows s s' mid ht hc
    exact (hP _ _).2 ⟨t, rows, s, s', mid, ht, hc, rfl, rfl⟩
  · intro t s row hrow
    exact (hS _ _).2 ⟨t, s, row, hrow, rfl, rfl⟩
  · intro t t' rows rows' s s' m m' hne ht ht' hc hc'
    obtain ⟨h, hh⟩ := headwayTime_found (G.trains.table ht).1 (G.trains.table ht').1
      (G.trains.table ht).2 (G.trains.table ht').2 hc hc' r
    exact ⟨h, hh, (hH _ _).2 ⟨t, t', rows, rows', s, s', _, _, hne, ht, ht', ⟨_, _, ht, hc, rfl⟩,
      ⟨_, _, ht', hc', rfl⟩, rfl, hh⟩⟩
  · intro t s row v hrow hv
    have hkey := (hPr _ _).2 ⟨t, s, row, hrow, rfl, hv⟩
    have hnd : (Dict.keys prp).Nodup := by
      rw [getTausStop_eq] at hsp
      obtain ⟨es, -, hsp⟩ := bind_ok hsp
      have : prp = Dict.update [] (es.flatMap fun x => x.2.2) := by
        have := (Except.ok.inj hsp).symm
        exact congrArg Prod.snd this
      rw [this]
      exact keys_update_nodup List.nodup_nil
    refine (get?_update ?_ _ _).2 (.inl (Dict.mem_of_get? hkey))
    intro k a b ha hb
    have h1 := Dict.get?_of_mem hnd ha
    rw [Dict.get?_of_mem hnd hb] at h1
    exact (Option.some.inj h1).symm
  · intro t s
    have : (∃ u, Dict.get? (delays.foldl (fun ic d => addDelay ic d.1 d.2) ic)
        (key2 (.int t) (.str s)) = some u) ↔ ∃ u, Dict.get? ic (key2 (.int t) (.str s)) = some u := by
      rw [← Option.isSome_iff_exists, ← Option.isSome_iff_exists, Dict.get?_isSome, Dict.get?_isSome,
        keys_addDelays]
    refine this.trans ⟨?_, ?_⟩
    · rintro ⟨u, hu⟩
      obtain ⟨t', rows, s', row, ht, hf, hk, -⟩ := (hI _ _).1 hu
      obtain ⟨rfl, rfl⟩ := C52_intTrains_partial.1 _ _ _ _ hk
      exact ⟨rows, row, ht, hf⟩
    · rintro ⟨rows, row, ht, hf⟩
      obtain ⟨s0, row0, v, hf0, hv⟩ := (C38_initial_found td G.trains.keys t1).1 ⟨ic, hic⟩ t rows ht
      obtain ⟨rfl, rfl⟩ := hf.unique hf0
      exact ⟨v, (hI _ _).2 ⟨t, rows, _, _, ht, hf, rfl, hv⟩⟩
  · intro t s v
    constructor
    · intro hv
      obtain ⟨t', rows, s', dep, ht, hf, hk, hm⟩ := (hSc _ _).1 hv
      obtain ⟨rfl, rfl⟩ := C52_intTrains_partial.1 _ _ _ _ hk
      exact ⟨rows, dep, ht, hf, hm⟩
    · rintro ⟨rows, dep, ht, hf, hm⟩
      exact (hSc _ _).2 ⟨t, rows, s, dep, ht, hf, rfl, hm⟩
  · intro t s w' hw'
    obtain ⟨t', info, rows, ty, w0, s', ht, -, -, hl, hk, -⟩ := (hW.1 _ _).1 hw'
    obtain ⟨rfl, rfl⟩ := C52_intTrains_partial.1 _ _ _ _ hk
    exact hLast _ _ _ ⟨info, ht⟩ hl
  · intro t rows ht
    obtain ⟨info, hm⟩ := ht.mem
    obtain ⟨ty, w0, s, -, -, hl⟩ := (C40_found td G.trains.once skip _ _ _ _).1 ⟨pw, hpw⟩ _ hm
    exact ⟨s, hLast _ _ _ ht hl⟩

end Verif
