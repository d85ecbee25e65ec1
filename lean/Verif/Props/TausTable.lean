import Verif.Props.Following
import Verif.Props.Headway
import Verif.Props.Stops
import Verif.Props.Schedule

/-!
# C33: which headways are tabulated; C36: preparation times and single stops
-/

namespace Verif

/-! ## Headways -/

theorem mem_orderedPairs {l : List Int} {p : Int × Int} :
    p ∈ orderedPairs l ↔ p.1 ∈ l ∧ p.2 ∈ l ∧ p.1 ≠ p.2 := by
  unfold orderedPairs
  simp only [List.mem_filter, List.mem_flatMap, List.mem_map, decide_eq_true_eq]
  constructor
  · rintro ⟨⟨a, ha, b, hb, rfl⟩, hne⟩
    exact ⟨ha, hb, hne⟩
  · rintro ⟨ha, hb, hne⟩
    exact ⟨⟨p.1, ha, p.2, hb, rfl⟩, hne⟩

/-- the headway entries of the line from `s1` -/
def headwayEntries (td : Trains) (d : Dict String (Dict String (List (List Int)))) (r : Int)
    (s1 : String) : Py (Dict String ℚ) := do
  let g ← Dict.at! d s1
  collect g fun e => collect (orderedPairs (flatten e.2)) fun p => do
    let a ← Dict.at! td p.1
    let b ← Dict.at! td p.2
    let h ← headwayTime a.2 b.2 s1 e.1 r
    .ok [(key4 (.int p.1) (.int p.2) (.str s1) (.str e.1), h)]

theorem getTausHeadway_eq (td : Trains) (st : Stations) (r : Int) :
    getTausHeadway td st r = (jd td st none >>= fun d =>
      collect (Dict.keys st) (headwayEntries td d r) >>= fun es => .ok (Dict.update [] es)) := by
  unfold getTausHeadway
  cases jd td st none with
  | error e => rfl
  | ok d =>
    change loop _ _ _ = _
    refine loop_update (fun acc s1 _ => ?_) []
    unfold headwayEntries
    cases Dict.at! d s1 with
    | error e => rfl
    | ok g =>
      change loop _ _ _ = _
      refine loop_update (fun acc e _ => ?_) acc
      refine loop_update (fun acc p _ => ?_) acc
      cases Dict.at! td p.1 with
      | error e => rfl
      | ok a =>
        cases Dict.at! td p.2 with
        | error e => rfl
        | ok b =>
          change (headwayTime a.2 b.2 s1 e.1 r >>= _) = (headwayTime a.2 b.2 s1 e.1 r >>= _) >>= _
          cases headwayTime a.2 b.2 s1 e.1 r with
          | error e => rfl
          | ok h => rfl

theorem mapPy_succeeds {α β : Type} {f : α → Py β} {xs : List α} (h : ∀ x ∈ xs, ∃ y, f x = .ok y) :
    ∃ ys, mapPy f xs = .ok ys := by
  induction xs with
  | nil => exact ⟨[], rfl⟩
  | cons x xs ih =>
    obtain ⟨y, hy⟩ := h x List.mem_cons_self
    obtain ⟨ys, hys⟩ := ih fun z hz => h z (List.mem_cons_of_mem _ hz)
    exact ⟨y :: ys, by simp only [mapPy, hy, hys]⟩

/-- the headway of two trains running from `s` to `s'` is always found -/
theorem headwayTime_found {tt tt' : List Row} {s s' : String} {m m' : List Row}
    (ho : OnceEach tt) (ho' : OnceEach tt') (hb : BlocksOnce tt) (hb' : BlocksOnce tt')
    (hc : Consecutive tt s s' m) (hc' : Consecutive tt' s s' m') (r : Int) :
    ∃ h, headwayTime tt tt' s s' r = .ok h := by
  have e1 := consecutive_blocks ho hc
  have e2 := consecutive_blocks ho' hc'
  have hsub : ∀ b ∈ commonPath tt tt' s s', (∃ x ∈ m, x.path = b) ∧ ∃ x ∈ m', x.path = b := by
    intro b hbm
    unfold commonPath at hbm
    simp only [e1, e2] at hbm
    split at hbm
    · rename_i he
      exact ⟨List.mem_map.1 hbm, List.mem_map.1 (he ▸ hbm)⟩
    · have := (checkCommonGo_prefix (m'.map (·.path)) (m.map (·.path)) [] []).subset hbm
      simp only [flatten, List.flatMap_nil, List.nil_append, commonElements, List.mem_filter,
        decide_eq_true_eq] at this
      exact ⟨List.mem_map.1 this.1, List.mem_map.1 this.2⟩
  have found : ∀ {tt : List Row} {m : List Row} {s s' : String}, BlocksOnce tt →
      Consecutive tt s s' m → ∀ b, (∃ x ∈ m, x.path = b) → ∃ t, getPassingTimeBlock b tt = .ok t := by
    rintro tt m s s' hb hc b ⟨x, hx, rfl⟩
    exact ⟨_, passing_of_row hb (consecutive_mem hc x hx)⟩
  obtain ⟨t1, h1⟩ := mapPy_succeeds (f := fun b => getPassingTimeBlock b tt)
    (xs := commonPath tt tt' s s') fun b hbm => found hb hc b (hsub b hbm).1
  obtain ⟨t2, h2⟩ := mapPy_succeeds (f := fun b => getPassingTimeBlock b tt')
    (xs := commonPath tt tt' s s') fun b hbm => found hb' hc' b (hsub b hbm).2
  unfold headwayTime
  simp only
  rw [h1]
  change ∃ h, (mapPy _ _ >>= _) = _
  rw [h2]
  exact ⟨_, rfl⟩

theorem jd_keys_nodup {td : Trains} {st : Stations}
    {imp : Option (List String)} {d : Dict String (Dict String (List (List Int)))}
    (h : jd td st imp = .ok d) : (Dict.keys d).Nodup ∧ ∀ e ∈ d, (Dict.keys e.2).Nodup := by
  unfold jd at h
  simp only at h
  refine ⟨loop_inv h (fun d => (Dict.keys d).Nodup) (by simp [Dict.keys]) ?_,
    loop_inv h (fun d => ∀ e ∈ d, (Dict.keys e.2).Nodup) (by simp) ?_⟩
  · intro s _ a b ha hab
    obtain ⟨js, _, hab⟩ := bind_ok hab
    obtain ⟨g, _, hab⟩ := bind_ok hab
    cases hab
    exact Dict.nodup_keys_set ha _ _
  · intro s _ a b ha hab
    obtain ⟨js, _, hab⟩ := bind_ok hab
    obtain ⟨g, hg, hab⟩ := bind_ok hab
    cases hab
    have hgn : (Dict.keys g).Nodup := by
      refine loop_inv hg (fun d => (Dict.keys d).Nodup) (by simp [Dict.keys]) ?_
      intro j _ x y hx hxy
      unfold jdStep at hxy
      obtain ⟨e, _, hxy⟩ := bind_ok hxy
      split at hxy
      · cases hxy; exact hx
      · obtain ⟨gs, _, hxy⟩ := bind_ok hxy
        cases hxy
        exact Dict.nodup_keys_set hx _ _
    intro e he
    rcases mem_update (d := a) (e := [(s, g)]) he with h | h
    · exact ha e h
    · rw [List.mem_singleton.1 h]; exact hgn

/-- **C33, table.** The tabulated headways are exactly those of all ordered pairs of different
trains running from a station `s` to the next station `s'`, computed from the timetable of the
first train and that of the second. All of them are found. -/
theorem C33_table (td : Trains) (st : Stations) (hw : WfTrains td) (hn : StationNamesOK td)
    (hks : (Dict.keys st).Nodup) (htag : Tagged st td) (r : Int) :
    ∃ d, getTausHeadway td st r = .ok d ∧ ∀ k v, Dict.get? d k = some v ↔
      ∃ t t' tt tt' s s' b b', t ≠ t' ∧ TableOf td t tt ∧ TableOf td t' tt' ∧
        Runs td t s s' b ∧ Runs td t' s s' b' ∧
        k = key4 (.int t) (.int t') (.str s) (.str s') ∧ headwayTime tt tt' s s' r = .ok v := by
  obtain ⟨d, hd⟩ := C29_found td st hw.keys hks none (fun s hs => hs)
  obtain ⟨hdk, hdk2⟩ := jd_keys_nodup hd
  have hcov := fun s hs => C29_cover_partial td st hw.keys hks htag hw.once none d hd s hs hs
  -- members of the groups
  have hgrp : ∀ s ∈ Dict.keys st, ∀ g, Dict.get? d s = some g → ∀ e ∈ g, ∀ t, t ∈ flatten e.2 ↔
      ∃ b, Runs td t s e.1 b := by
    intro s hs g hg e he t
    obtain ⟨g', hg', hall⟩ := hcov s hs
    rw [hg] at hg'; cases hg'
    have hget := Dict.get?_of_mem (hdk2 _ (Dict.mem_of_get? hg)) he
    exact ((hall e.1).2 _ hget).1 t
  have hpair : ∀ {t t' : Int} {s s' b b'}, Runs td t s s' b → Runs td t' s s' b' →
      ∃ a c v, Dict.get? td t = some a ∧ Dict.get? td t' = some c ∧
        headwayTime a.2 c.2 s s' r = .ok v := by
    rintro t t' s s' b b' ⟨tt, m, ⟨i, ht⟩, hc, _⟩ ⟨tt', m', ⟨i', ht'⟩, hc', _⟩
    obtain ⟨o1, b1⟩ := hw.table ⟨i, ht⟩
    obtain ⟨o2, b2⟩ := hw.table ⟨i', ht'⟩
    obtain ⟨v, hv⟩ := headwayTime_found o1 o2 b1 b2 hc hc' r
    exact ⟨_, _, v, ht, ht', hv⟩
  -- the entries of one station
  have hent : ∀ s ∈ Dict.keys st, ∃ es, headwayEntries td d r s = .ok es ∧ ∀ k v, (k, v) ∈ es ↔
      ∃ t t' tt tt' s' b b', t ≠ t' ∧ TableOf td t tt ∧ TableOf td t' tt' ∧
        Runs td t s s' b ∧ Runs td t' s s' b' ∧
        k = key4 (.int t) (.int t') (.str s) (.str s') ∧ headwayTime tt tt' s s' r = .ok v := by
    intro s hs
    obtain ⟨g, hg, hall⟩ := hcov s hs
    have hone : ∀ e ∈ g, ∀ p ∈ orderedPairs (flatten e.2), ∃ a c v, Dict.get? td p.1 = some a ∧
        Dict.get? td p.2 = some c ∧ headwayTime a.2 c.2 s e.1 r = .ok v ∧
        (do
          let a ← Dict.at! td p.1
          let b ← Dict.at! td p.2
          let h ← headwayTime a.2 b.2 s e.1 r
          .ok [(key4 (.int p.1) (.int p.2) (.str s) (.str e.1), h)] : Py (Dict String ℚ)) =
        .ok [(key4 (.int p.1) (.int p.2) (.str s) (.str e.1), v)] := by
      intro e he p hp
      obtain ⟨h1, h2, _⟩ := mem_orderedPairs.1 hp
      obtain ⟨b, hb⟩ := (hgrp s hs g hg e he _).1 h1
      obtain ⟨b', hb'⟩ := (hgrp s hs g hg e he _).1 h2
      obtain ⟨a, c, v, ha, hc, hv⟩ := hpair hb hb'
      refine ⟨a, c, v, ha, hc, hv, ?_⟩
      rw [Dict.at!_ok.2 ha]
      change (Dict.at! td p.2 >>= _) = _
      rw [Dict.at!_ok.2 hc]
      change (headwayTime a.2 c.2 s e.1 r >>= _) = _
      rw [hv]; rfl
    obtain ⟨es, hes⟩ := collect_succeeds (xs := g) (f := fun e =>
      collect (orderedPairs (flatten e.2)) fun p => do
        let a ← Dict.at! td p.1
        let b ← Dict.at! td p.2
        let h ← headwayTime a.2 b.2 s e.1 r
        .ok [(key4 (.int p.1) (.int p.2) (.str s) (.str e.1), h)]) fun e he =>
      collect_succeeds fun p hp => by
        obtain ⟨_, _, _, _, _, _, h⟩ := hone e he p hp
        exact ⟨_, h⟩
    refine ⟨es, ?_, ?_⟩
    · unfold headwayEntries
      rw [Dict.at!_ok.2 hg]
      exact hes
    · intro k v
      rw [mem_collect hes]
      constructor
      · rintro ⟨e, he, l, hl, hin⟩
        obtain ⟨p, hp, x, hx, hin⟩ := (mem_collect hl _).1 hin
        obtain ⟨a, c, w, ha, hc, hv, hx'⟩ := hone e he p hp
        rw [hx] at hx'
        cases hx'
        simp only [List.mem_singleton, Prod.mk.injEq] at hin
        obtain ⟨h1, h2, h3⟩ := mem_orderedPairs.1 hp
        obtain ⟨b, hb⟩ := (hgrp s hs g hg e he _).1 h1
        obtain ⟨b', hb'⟩ := (hgrp s hs g hg e he _).1 h2
        exact ⟨p.1, p.2, a.2, c.2, e.1, b, b', h3, ⟨a.1, ha⟩, ⟨c.1, hc⟩, hb, hb', hin.1,
          by rw [hin.2]; exact hv⟩
      · rintro ⟨t, t', tt, tt', s', b, b', hne, ht, ht', hb, hb', rfl, hv⟩
        have hsome : ∃ gs, Dict.get? g s' = some gs := by
          cases hgs : Dict.get? g s' with
          | none => exact absurd ⟨t, b, hb⟩ ((hall s').1.1 hgs)
          | some gs => exact ⟨gs, rfl⟩
        obtain ⟨gs, hgs⟩ := hsome
        have he := Dict.mem_of_get? hgs
        obtain ⟨l, hl, _⟩ := (collect_ok hes).1 _ he
        refine ⟨_, he, l, hl, ?_⟩
        have hp : (t, t') ∈ orderedPairs (flatten gs) := mem_orderedPairs.2
          ⟨(hgrp s hs g hg _ he _).2 ⟨b, hb⟩, (hgrp s hs g hg _ he _).2 ⟨b', hb'⟩, hne⟩
        obtain ⟨a, c, w, ha, hc, hv', hx⟩ := hone _ he _ hp
        refine (mem_collect hl _).2 ⟨_, hp, _, hx, ?_⟩
        obtain ⟨i, ht⟩ := ht
        obtain ⟨i', ht'⟩ := ht'
        rw [ha] at ht; cases ht
        rw [hc] at ht'; cases ht'
        simp only at hv'
        rw [hv] at hv'; cases hv'
        exact List.mem_singleton_self _
  obtain ⟨es, hes⟩ := collect_succeeds (f := headwayEntries td d r) fun s hs => by
    obtain ⟨x, hx, _⟩ := hent s hs
    exact ⟨x, hx⟩
  have hmem : ∀ k v, (k, v) ∈ es ↔
      ∃ t t' tt tt' s s' b b', t ≠ t' ∧ TableOf td t tt ∧ TableOf td t' tt' ∧
        Runs td t s s' b ∧ Runs td t' s s' b' ∧
        k = key4 (.int t) (.int t') (.str s) (.str s') ∧ headwayTime tt tt' s s' r = .ok v := by
    intro k v
    rw [mem_collect hes]
    constructor
    · rintro ⟨s, hs, a, ha, hin⟩
      obtain ⟨x, hx, hiff⟩ := hent s hs
      rw [ha] at hx; cases hx
      obtain ⟨t, t', tt, tt', s', h⟩ := (hiff k v).1 hin
      exact ⟨t, t', tt, tt', s, s', h⟩
    · rintro ⟨t, t', tt, tt', s, s', b, b', hne, ht, ht', hb, h⟩
      obtain ⟨_, _, _, _, ⟨bs, hm, _⟩⟩ := runs_calls htag hb
      have hs : s ∈ Dict.keys st := List.mem_map_of_mem (f := Prod.fst) hm
      obtain ⟨x, hx, hiff⟩ := hent s hs
      exact ⟨s, hs, x, hx, (hiff k v).2 ⟨t, t', tt, tt', s', b, b', hne, ht, ht', hb, h⟩⟩
  refine ⟨Dict.update [] es, ?_, ?_⟩
  · rw [getTausHeadway_eq, hd]
    change (collect _ _ >>= _) = _
    rw [hes]; rfl
  · intro k v
    rw [get?_build ?_ k v, hmem]
    intro k v v' h1 h2
    rw [hmem] at h1 h2
    obtain ⟨t, t', tt, tt', s, s', b, b', _, ht, ht', hb, _, hk, hv⟩ := h1
    obtain ⟨u, u', uu, uu', x, x', c, c', _, hu, hu', hc, _, hk', hv'⟩ := h2
    rw [hk] at hk'
    have plain : ∀ {t s s' b}, Runs td t s s' b → Plain (.str s) := by
      rintro t s s' b ⟨tt, m, ht, hc, _⟩
      obtain ⟨i, hi⟩ := ht.mem
      obtain ⟨row, hr, hrs⟩ := (consecutive_serves hc).1
      exact (hn _ hi row hr _ hrs).2
    obtain ⟨rfl, rfl, rfl, rfl⟩ := C52_intTrains_partial.2.2 _ _ _ _ _ _ _ _ (plain hb) (plain hc) hk'
    cases ht.unique hu
    cases ht'.unique hu'
    rw [hv] at hv'; cases hv'; rfl

/-- C33, table, for trains over the same blocks: the value is that of the formula of
`C33_formula`. -/
theorem C33_table_same {td : Trains} (hw : WfTrains td) {t t' : Int} {tt tt' m m' : List Row}
    {s s' : String} (ht : TableOf td t tt) (ht' : TableOf td t' tt') (hc : Consecutive tt s s' m)
    (hc' : Consecutive tt' s s' m') (hsame : m.map (·.path) = m'.map (·.path)) (r : Int) :
    headwayTime tt tt' s s' r =
      .ok (roundIf r ((headwayOf (headwayK s s') (timesOf m) (timesOf m')).getD 0)) := by
  obtain ⟨o1, b1⟩ := hw.table ht
  obtain ⟨o2, b2⟩ := hw.table ht'
  obtain ⟨pre, r1, r2, post, rfl, h1, h2, _⟩ := hc
  obtain ⟨pre', r1', r2', post', rfl, h1', h2', _⟩ := hc'
  obtain ⟨n1, n2⟩ := consecutive_neither o1 rfl h1 h2
  obtain ⟨n1', n2'⟩ := consecutive_neither o2 rfl h1' h2'
  exact headwayTime_eq pre m post pre' m' post' r1 r2 r1' r2' s s' h1 h2 h1' h2' n1 n2 n1' n2' b1 b2
    hsame r

/-! ## Preparation times -/

/-- one train -/
def prepEntry (st : Stations) (r : Int) (e : Int × Entry Row) : Py (Dict String ℚ) := do
  let s ← nth (trainImportantStations e.2.2) 0
  let t ← turnAroundTime e.2.2 s st r
  if t ≠ 0 then .ok [(key2 (.int e.1) (.str s), t)] else .ok []

theorem getTausPrep_eq (td : Trains) (st : Stations) (r : Int) : getTausPrep td st r =
    (collect td (prepEntry st r) >>= fun es => .ok (Dict.update [] es)) := by
  unfold getTausPrep
  refine loop_update (fun d e _ => ?_) []
  unfold prepEntry
  cases nth (trainImportantStations e.2.2) 0 with
  | error x => rfl
  | ok s =>
    change (turnAroundTime e.2.2 s st r >>= _) = (turnAroundTime e.2.2 s st r >>= _) >>= _
    cases turnAroundTime e.2.2 s st r with
    | error x => rfl
    | ok t =>
      change (if t ≠ 0 then _ else _) = ((if t ≠ 0 then _ else _) >>= _)
      split <;> rfl

theorem firstStation_nth {tt : List Row} {s : String} :
    nth (trainImportantStations tt) 0 = .ok s ↔ ∃ row, FirstStation tt s row := by
  unfold nth trainImportantStations
  induction tt with
  | nil =>
    simp only [List.filterMap_nil, List.getElem?_nil, reduceCtorEq, false_iff, not_exists]
    rintro row ⟨pre, post, h, _⟩
    simp at h
  | cons r tt ih =>
    cases hr : r.station with
    | none =>
      rw [List.filterMap_cons_none hr, ih]
      constructor
      · rintro ⟨row, pre, post, rfl, h1, h2⟩
        exact ⟨row, r :: pre, post, rfl, h1, by
          intro x hx
          rcases List.mem_cons.1 hx with rfl | hx
          · exact hr
          · exact h2 x hx⟩
      · rintro ⟨row, pre, post, h, h1, h2⟩
        cases pre with
        | nil =>
          simp only [List.nil_append, List.cons.injEq] at h
          rw [h.1, h1] at hr; cases hr
        | cons x pre =>
          simp only [List.cons_append, List.cons.injEq] at h
          exact ⟨row, pre, post, h.2, h1, fun y hy => h2 y (List.mem_cons_of_mem _ hy)⟩
    | some s0 =>
      rw [List.filterMap_cons_some hr]
      simp only [List.getElem?_cons_zero, Except.ok.injEq]
      constructor
      · rintro rfl
        exact ⟨r, [], tt, rfl, hr, by simp⟩
      · rintro ⟨row, pre, post, h, h1, h2⟩
        cases pre with
        | nil =>
          simp only [List.nil_append, List.cons.injEq] at h
          rw [h.1, h1] at hr; cases hr; rfl
        | cons x pre =>
          simp only [List.cons_append, List.cons.injEq] at h
          have := h2 x List.mem_cons_self
          rw [← h.1, hr] at this; cases this

theorem turnAroundTime_eq {st : Stations} {tt : List Row} (hst : WfStations st)
    (htag : TaggedRows st tt) (ho : OnceEach tt) (hb : BlocksOnce tt) {row : Row} {s : String}
    (hr : row ∈ tt) (hs : row.station = some s) (r : Int) :
    turnAroundTime tt s st r = .ok (roundIf r (row.turnaround.getD 0)) := by
  unfold turnAroundTime
  rw [stationBlocks_eq hst htag ho hr hs]
  change (firstRow tt row.path >>= _) = _
  rw [firstRow_eq hb hr]
  rfl

theorem prepEntry_iff {td : Trains} {st : Stations} (hw : WfTrains td) (hst : WfStations st)
    (htag : Tagged st td) (r : Int) {e : Int × Entry Row} (he : e ∈ td) {es : Dict String ℚ} :
    prepEntry st r e = .ok es ↔ ∃ s row, FirstStation e.2.2 s row ∧
      es = if roundIf r (row.turnaround.getD 0) = 0 then []
        else [(key2 (.int e.1) (.str s), roundIf r (row.turnaround.getD 0))] := by
  have hmem : ∀ {s row}, FirstStation e.2.2 s row → row ∈ e.2.2 ∧ row.station = some s := by
    rintro s row ⟨pre, post, h, h1, _⟩
    exact ⟨by rw [h]; simp, h1⟩
  have hta : ∀ {s row}, FirstStation e.2.2 s row →
      turnAroundTime e.2.2 s st r = .ok (roundIf r (row.turnaround.getD 0)) := fun h =>
    turnAroundTime_eq hst (htag e he) (hw.once e he) (hw.blocks e he) (hmem h).1 (hmem h).2 r
  unfold prepEntry
  constructor
  · intro h
    obtain ⟨s, h1, h⟩ := bind_ok h
    obtain ⟨row, hrow⟩ := firstStation_nth.1 h1
    rw [hta hrow] at h
    change (if roundIf r (row.turnaround.getD 0) ≠ 0 then _ else _) = _ at h
    refine ⟨s, row, hrow, ?_⟩
    split at h
    · rename_i hne; cases h; rw [if_neg hne]
    · rename_i hne
      cases h
      rw [not_not] at hne
      rw [if_pos hne]
  · rintro ⟨s, row, hrow, rfl⟩
    rw [firstStation_nth.2 ⟨row, hrow⟩]
    change (turnAroundTime e.2.2 s st r >>= _) = _
    rw [hta hrow]
    change (if roundIf r (row.turnaround.getD 0) ≠ 0 then _ else _) = _
    by_cases h0 : roundIf r (row.turnaround.getD 0) = 0
    · rw [if_neg (by rw [not_not]; exact h0), if_pos h0]
    · rw [if_pos h0, if_neg h0]

/-- **C36, preparation times** of `get_taus_prep`: exactly the trains with a turnaround time at
their first station that is not 0 (after rounding) have an entry, and this is it. -/
theorem C36_prep (td : Trains) (st : Stations) (hw : WfTrains td) (hst : WfStations st)
    (htag : Tagged st td) (r : Int) (d : Dict String ℚ) (h : getTausPrep td st r = .ok d)
    (k : String) (v : ℚ) :
    Dict.get? d k = some v ↔ ∃ t tt s row, TableOf td t tt ∧ FirstStation tt s row ∧
      k = key2 (.int t) (.str s) ∧ v = roundIf r (row.turnaround.getD 0) ∧ v ≠ 0 := by
  rw [getTausPrep_eq] at h
  obtain ⟨es, hes, h⟩ := bind_ok h
  cases h
  have hmem : ∀ k v, (k, v) ∈ es ↔ ∃ t tt s row, TableOf td t tt ∧ FirstStation tt s row ∧
      k = key2 (.int t) (.str s) ∧ v = roundIf r (row.turnaround.getD 0) ∧ v ≠ 0 := by
    intro k v
    rw [mem_collect hes]
    constructor
    · rintro ⟨e, he, a, ha, hin⟩
      obtain ⟨s, row, hrow, rfl⟩ := (prepEntry_iff hw hst htag r he).1 ha
      split at hin
      · cases hin
      · rename_i hne
        simp only [List.mem_singleton, Prod.mk.injEq] at hin
        exact ⟨e.1, e.2.2, s, row, TableOf.of_mem hw.keys he, hrow, hin.1, hin.2,
          by rw [hin.2]; exact hne⟩
    · rintro ⟨t, tt, s, row, ht, hrow, rfl, rfl, hne⟩
      obtain ⟨info, hm⟩ := ht.mem
      refine ⟨_, hm, _, (prepEntry_iff hw hst htag r hm).2 ⟨s, row, hrow, rfl⟩, ?_⟩
      rw [if_neg hne]
      exact List.mem_singleton_self _
  rw [get?_build ?_ k v, hmem]
  intro k v v' h1 h2
  rw [hmem] at h1 h2
  obtain ⟨t, tt, s, row, ht, hr, hk, hv, _⟩ := h1
  obtain ⟨u, uu, x, row', hu, hr', hk', hv', _⟩ := h2
  rw [hk] at hk'
  obtain ⟨rfl, rfl⟩ := C52_intTrains_partial.1 _ _ _ _ hk'
  cases ht.unique hu
  obtain ⟨_, rfl⟩ := hr.unique hr'
  rw [hv, hv']

/-- C36: `get_taus_prep` succeeds exactly if every train has a station. -/
theorem C36_prep_found (td : Trains) (st : Stations) (hw : WfTrains td) (hst : WfStations st)
    (htag : Tagged st td) (r : Int) :
    (∃ d, getTausPrep td st r = .ok d) ↔
      ∀ t tt, TableOf td t tt → ∃ s row, FirstStation tt s row := by
  rw [getTausPrep_eq]
  constructor
  · rintro ⟨d, h⟩ t tt ht
    obtain ⟨es, hes, _⟩ := bind_ok h
    obtain ⟨info, hm⟩ := ht.mem
    obtain ⟨a, ha, _⟩ := (collect_ok hes).1 _ hm
    obtain ⟨s, row, hrow, _⟩ := (prepEntry_iff hw hst htag r hm).1 ha
    exact ⟨s, row, hrow⟩
  · intro h
    obtain ⟨es, hes⟩ := collect_succeeds (xs := td) (f := prepEntry st r) fun e he => by
      obtain ⟨s, row, hrow⟩ := h e.1 e.2.2 (TableOf.of_mem hw.keys he)
      exact ⟨_, (prepEntry_iff hw hst htag r he).2 ⟨s, row, hrow, rfl⟩⟩
    exact ⟨_, by rw [hes]; rfl⟩

/-- **C36, the function `minimal_stay`**: for the first station the stop is the passing time of the
station block and the turnaround time is the preparation time; for other stations the stop is the sum
of both (rounded at the end) and there is no preparation time. -/
theorem C36_stay {st : Stations} {tt : List Row} (hst : WfStations st)
    (htag : TaggedRows st tt) (ho : OnceEach tt) (hb : BlocksOnce tt) {row : Row} {s : String}
    (hr : row ∈ tt) (hs : row.station = some s) (t : Int) (res : Int) :
    (∃ prep, minimalStayTime t s tt st true res = .ok (roundIf res (row.passingTime.getD 0), prep) ∧
      ∀ k v, Dict.get? prep k = some v ↔ k = key2 (.int t) (.str s) ∧ row.turnaround = some v) ∧
    minimalStayTime t s tt st false res =
      .ok (roundIf res (row.passingTime.getD 0 + row.turnaround.getD 0), []) := by
  constructor
  · rw [minimalStayTime_eq hst htag ho hb hr hs]
    refine ⟨_, rfl, ?_⟩
    intro k v
    cases row.turnaround with
    | none => simp [Dict.get?]
    | some ta =>
      simp only [Dict.get?, Option.some.injEq]
      split
      · rename_i h; simp [h]
      · rename_i h; simp only [reduceCtorEq, false_iff]; rintro ⟨rfl, _⟩; exact h rfl
  · unfold minimalStayTime
    rw [stationBlocks_eq hst htag ho hr hs]
    change (firstRow tt row.path >>= _) = _
    rw [firstRow_eq hb hr]
    change (mapPy (fun b => getPassingTimeBlock b tt) [row.path] >>= _) = _
    simp only [mapPy, passing_of_row hb hr]
    cases row.turnaround with
    | none => simp [bind, Except.bind]
    | some ta => simp [bind, Except.bind]

set_option synthInstance.maxSize 1000 in
/-- the hypotheses of the theorems, and what is computed: two trains in opposite directions have no
headway, two in the same direction have one each way; turnaround times at the first station -/
example : WfTrains exampleTrains ∧ StationNamesOK exampleTrains ∧ WfStations threeStations ∧
    Tagged threeStations exampleTrains ∧
    getTausPrep exampleTrains threeStations 0 = .ok [("2_B", 7)] ∧
    getTausHeadway exampleTrains threeStations 0 = .ok [] :=
  ⟨exampleTrains_wf, exampleTrains_names, threeStations_wf, exampleTrains_tagged,
    by decide +kernel, by decide +kernel⟩

/-- a slow train and a fast one on the line A - B -/
def headwayTrains : Trains :=
  [(1, ([], [{ path := "a", station := some "A" }, { path := "l1", passingTime := some 2 },
      { path := "l2", passingTime := some (5/2) }, { path := "b", station := some "B" }])),
   (2, ([], [{ path := "a", station := some "A" }, { path := "l1", passingTime := some 1 },
      { path := "l2", passingTime := some (1/2) }, { path := "b", station := some "B" }]))]

set_option synthInstance.maxSize 1000 in
/-- the same, with headways in both orders, which are different -/
example : WfTrains headwayTrains ∧ StationNamesOK headwayTrains ∧ Tagged threeStations headwayTrains ∧
    getTausHeadway headwayTrains threeStations 0 = .ok [("1_2_A_B", 9/2), ("2_1_A_B", 3/2)] := by
  have h : ∀ e ∈ headwayTrains, ∀ r ∈ e.2.2, r.station = none ∨ r.station = some "A" ∨
      r.station = some "B" := by decide +kernel
  refine ⟨⟨by decide +kernel, by unfold OnceEach; decide +kernel, by unfold BlocksOnce; decide +kernel⟩,
    ?_, tagged_of_check threeStations_wf.1 (by decide +kernel), by decide +kernel⟩
  intro e he r hr s hs
  rcases h e he r hr with h | h | h <;> rw [h] at hs <;> cases hs <;> decide

/-! ## Rows with times -/

/-- `get_arr_dep_vals` lists the three cells `Arr`, `Dep`, `Approx_enter` of exactly those rows where
at least one of them is filled in -/
theorem C38_cells (tt : List Row) (v : Option String × Option String × Option String) :
    v ∈ getArrDepVals tt ↔ ∃ row ∈ tt, v = (row.arr, row.dep, row.approxEnter) ∧
      (row.arr ≠ none ∨ row.dep ≠ none ∨ row.approxEnter ≠ none) := by
  unfold getArrDepVals
  simp only [List.mem_filter, List.mem_map, Bool.or_eq_true, Option.isSome_iff_ne_none]
  constructor
  · rintro ⟨⟨row, hr, rfl⟩, h⟩
    exact ⟨row, hr, rfl, by tauto⟩
  · rintro ⟨row, hr, rfl, h⟩
    exact ⟨⟨row, hr, rfl⟩, by tauto⟩

end Verif
