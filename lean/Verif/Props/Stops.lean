import Verif.Props.Taus
import Verif.Proofs.Data

/-!
# C36: times of stops and preparation times
-/

namespace Verif

/-- `important_stations` as assumed below: no block in two stations, none twice in one -/
def WfStations (st : Stations) : Prop := DisjointStations st ∧ ∀ e ∈ st, e.2.Nodup

theorem once_unique {tt : List Row} (ho : OnceEach tt) {r r' : Row} {s : String} (hr : r ∈ tt)
    (hr' : r' ∈ tt) (h : r.station = some s) (h' : r'.station = some s) : r = r' := by
  unfold OnceEach at ho
  induction tt with
  | nil => cases hr
  | cons x tt ih =>
    have memf : ∀ (y : Row), y ∈ tt → y.station = some s → s ∈ tt.filterMap (·.station) :=
      fun y hy hx => List.mem_filterMap.2 ⟨y, hy, hx⟩
    rcases List.mem_cons.1 hr with rfl | hr1
    · rcases List.mem_cons.1 hr' with rfl | hr2
      · rfl
      · rw [List.filterMap_cons_some h, List.nodup_cons] at ho
        exact absurd (memf r' hr2 h') ho.1
    · rcases List.mem_cons.1 hr' with rfl | hr2
      · rw [List.filterMap_cons_some h', List.nodup_cons] at ho
        exact absurd (memf r hr1 h) ho.1
      · refine ih ?_ hr1 hr2
        cases hx : x.station with
        | none => rwa [List.filterMap_cons_none hx] at ho
        | some y => rw [List.filterMap_cons_some hx, List.nodup_cons] at ho; exact ho.2

theorem nodup_singleton {l : List String} {x : String} (hnd : l.Nodup) (hx : x ∈ l)
    (h : ∀ y ∈ l, y = x) : l = [x] := by
  cases l with
  | nil => cases hx
  | cons a l =>
    have ha := h a List.mem_cons_self
    subst ha
    cases l with
    | nil => rfl
    | cons b l =>
      have hb := h b (by simp)
      subst hb
      simp at hnd

/-- the only block of the train at the station -/
theorem stationBlocks_eq {st : Stations} {tt : List Row} (hst : WfStations st)
    (htag : TaggedRows st tt) (ho : OnceEach tt) {r : Row} {s : String} (hr : r ∈ tt)
    (hs : r.station = some s) : blocksList4station tt s st = .ok [r.path] := by
  unfold blocksList4station
  rw [if_neg (by rw [not_not]; exact mem_stations.2 ⟨r, hr, hs⟩)]
  obtain ⟨bs, hm, hb⟩ := (htag r hr s).1 hs
  have hg := Dict.get?_of_mem hst.1.1 hm
  rw [show Dict.at! st s = .ok bs from Dict.at!_ok.2 hg]
  change Except.ok _ = Except.ok _
  congr 1
  unfold commonElements
  refine nodup_singleton ((hst.2 _ hm).filter _) ?_ ?_
  · rw [List.mem_filter]
    exact ⟨hb, by simpa using ⟨r, hr, rfl⟩⟩
  · intro y hy
    rw [List.mem_filter] at hy
    obtain ⟨h1, h2⟩ := hy
    simp only [decide_eq_true_eq] at h2
    obtain ⟨r', hr', rfl⟩ := List.mem_map.1 h2
    have := (htag r' hr' s).2 ⟨bs, hm, h1⟩
    rw [once_unique ho hr' hr this hs]

theorem firstRow_eq {tt : List Row} (hb : BlocksOnce tt) {r : Row} (hr : r ∈ tt) :
    firstRow tt r.path = .ok r := by
  unfold firstRow
  rw [filter_path hb hr]; rfl

theorem minimalStayTime_eq {st : Stations} {tt : List Row} (hst : WfStations st)
    (htag : TaggedRows st tt) (ho : OnceEach tt) (hb : BlocksOnce tt) {r : Row} {s : String}
    (hr : r ∈ tt) (hs : r.station = some s) (t : Int) (res : Int) :
    minimalStayTime t s tt st true res =
      .ok (roundIf res (r.passingTime.getD 0),
        match r.turnaround with
        | some ta => [(key2 (.int t) (.str s), ta)]
        | .none => []) := by
  unfold minimalStayTime
  rw [stationBlocks_eq hst htag ho hr hs]
  have h1 := passing_of_rows hb (m := [r]) (by intro x hx; simp at hx; subst hx; exact hr)
  simp only [List.map_cons, List.map_nil] at h1
  simp only [bind, Except.bind, nth, List.getElem?_cons_zero, firstRow_eq hb hr, h1]
  cases r.turnaround with
  | none => simp
  | some ta => simp

theorem subsequentBlock_eq {tt : List Row} (hb : BlocksOnce tt) {r : Row} (hr : r ∈ tt) :
    ∃ nb, subsequentBlock (tt.map (·.path)) r.path = .ok nb ∧
      (nb = none ↔ tt.getLast? = some r) := by
  obtain ⟨A, B, rfl⟩ := List.append_of_mem hr
  have hn : r.path ∉ A.map (·.path) := by
    unfold BlocksOnce at hb
    rw [List.map_append, List.map_cons, List.nodup_append] at hb
    intro hm
    exact hb.2.2 _ hm r.path (by simp) rfl
  unfold subsequentBlock
  rw [if_neg (by simp)]
  rw [List.map_append, List.map_cons, idx_first hn]
  cases B with
  | nil =>
    rw [if_pos (by simp)]
    exact ⟨none, rfl, by simp⟩
  | cons b B =>
    rw [if_neg (by simp)]
    unfold nth
    rw [List.getElem?_append_right (by omega)]
    simp only [Nat.add_sub_cancel_left, List.map_cons, List.getElem?_cons_succ,
      List.getElem?_cons_zero]
    refine ⟨some b.path, rfl, ?_⟩
    simp only [reduceCtorEq, false_iff]
    intro hl
    rw [List.getLast?_append, List.getLast?_cons_cons] at hl
    have hl' : (b :: B).getLast? = some r := by
      cases hc : (b :: B).getLast? with
      | none => rw [List.getLast?_eq_none_iff] at hc; cases hc
      | some x => rw [hc] at hl; simpa using hl
    have hm := List.mem_of_getLast? hl'
    unfold BlocksOnce at hb
    rw [List.map_append, List.map_cons, List.nodup_append, List.nodup_cons] at hb
    exact hb.2.1.1 (List.mem_map_of_mem hm)

/-- the entry of one stop: key, time, entries for the preparation times -/
def stopEntry (st : Stations) (res : Int) (t : Int) (tt : List Row) (n : Nat) (x : String × Nat) :
    Py (List (String × ℚ × Dict String ℚ)) := do
  let skip ← (if x.2 = n - 1 then do
      let bs ← blocksList4station tt x.1 st
      let b ← nth bs 0
      let nb ← subsequentBlock (tt.map (·.path)) b
      .ok (decide (nb = none))
    else .ok false : Py Bool)
  if skip then .ok []
  else do
    let m ← minimalStayTime t x.1 tt st true res
    .ok [(key2 (.int t) (.str x.1), m.1, m.2)]

/-- storing the entries of stops -/
def storeStops (stop prep : Dict String ℚ) (es : List (String × ℚ × Dict String ℚ)) :
    Dict String ℚ × Dict String ℚ :=
  (Dict.update stop (es.map fun x => (x.1, x.2.1)), Dict.update prep (es.flatMap fun x => x.2.2))

theorem storeStops_append (stop prep : Dict String ℚ) (a b : List (String × ℚ × Dict String ℚ)) :
    storeStops stop prep (a ++ b) =
      storeStops (storeStops stop prep a).1 (storeStops stop prep a).2 b := by
  simp only [storeStops, List.map_append, List.flatMap_append, update_append]

/-- `first_station` is set at the first station of a train and never reset, so all stops of the
train are treated as the first one -/
theorem stops_train (st : Stations) (res : Int) (t : Int) (tt : List Row) (n : Nat)
    (l : List String) (k : Nat) (acc : StopState) (hk : k = 0 ∨ acc.first = true) :
    (loop (l.zipIdx k) (tausStopStep st res t tt n) acc).map (fun a => (a.stop, a.prep)) =
      (collect (l.zipIdx k) (stopEntry st res t tt n)).map
        (fun es => storeStops acc.stop acc.prep es) := by
  induction l generalizing k acc with
  | nil => rfl
  | cons s l ih =>
    rw [List.zipIdx_cons]
    simp only [loop, collect]
    have hfirst : (if (s, k).2 = 0 then true else acc.first) = true := by
      rcases hk with h | h
      · simp [h]
      · simp [h]
    unfold tausStopStep stopEntry
    simp only at hfirst
    simp only [hfirst]
    generalize (if k = n - 1 then
      (do
        let bs ← blocksList4station tt s st
        let b ← nth bs 0
        let nb ← subsequentBlock (tt.map (·.path)) b
        .ok (decide (nb = none)) : Py Bool)
      else .ok false) = sk
    cases sk with
    | error e => rfl
    | ok b =>
      cases b with
      | true =>
        simp only [bind, Except.bind, if_true]
        have := ih (k + 1) { acc with first := true } (.inr rfl)
        unfold tausStopStep stopEntry at this
        simp only [bind, Except.bind] at this
        rw [this]
        cases collect (l.zipIdx (k + 1)) _ <;> rfl
      | false =>
        simp only [bind, Except.bind, Bool.false_eq_true, if_false]
        cases minimalStayTime t s tt st true res with
        | error e => rfl
        | ok m =>
          simp only
          have := ih (k + 1) ⟨true, Dict.set acc.stop (key2 (.int t) (.str s)) m.1,
            Dict.update acc.prep m.2⟩ (.inr rfl)
          unfold tausStopStep stopEntry at this
          simp only [bind, Except.bind] at this
          rw [this]
          cases collect (l.zipIdx (k + 1)) _ with
          | error e => rfl
          | ok es =>
            change Except.ok _ = Except.ok _
            congr 1
            simp only [storeStops_append]
            congr 1
            simp [storeStops]

/-- all entries of a train -/
def stopEntries (st : Stations) (res : Int) (e : Int × Entry Row) :
    Py (List (String × ℚ × Dict String ℚ)) :=
  collect (trainImportantStations e.2.2).zipIdx
    (stopEntry st res e.1 e.2.2 (trainImportantStations e.2.2).length)

theorem getTausStop_eq (td : Trains) (st : Stations) (res : Int) :
    getTausStop td st res =
      (collect td (stopEntries st res) >>= fun es => .ok (storeStops [] [] es)) := by
  unfold getTausStop
  have key : ∀ (td : Trains) (acc : StopState),
      (loop td (fun acc e => loop (trainImportantStations e.2.2).zipIdx
        (tausStopStep st res e.1 e.2.2 (trainImportantStations e.2.2).length) acc) acc).map
          (fun a => (a.stop, a.prep)) =
        (collect td (stopEntries st res)).map fun es => storeStops acc.stop acc.prep es := by
    intro td
    induction td with
    | nil => intro acc; rfl
    | cons e td ih =>
      intro acc
      simp only [loop, collect]
      have h1 := stops_train st res e.1 e.2.2 (trainImportantStations e.2.2).length
        (trainImportantStations e.2.2) 0 acc (.inl rfl)
      change _ = (stopEntries st res e).map _ at h1
      generalize hL : loop (trainImportantStations e.2.2).zipIdx
        (tausStopStep st res e.1 e.2.2 (trainImportantStations e.2.2).length) acc = L at h1 ⊢
      generalize hE : stopEntries st res e = E at h1 ⊢
      cases L with
      | error x =>
        cases E with
        | error y => cases h1; rfl
        | ok y => cases h1
      | ok a =>
        cases E with
        | error y => cases h1
        | ok es =>
          simp only [Except.map, Except.ok.injEq] at h1
          simp only
          rw [ih a]
          cases collect td (stopEntries st res) with
          | error y => rfl
          | ok es' =>
            change Except.ok _ = Except.ok _
            congr 1
            simp only [storeStops_append, ← h1]
  have := key td ⟨false, [], []⟩
  generalize loop td (fun acc e => loop (trainImportantStations e.2.2).zipIdx
        (tausStopStep st res e.1 e.2.2 (trainImportantStations e.2.2).length) acc)
          ⟨false, [], []⟩ = L at this ⊢
  generalize collect td (stopEntries st res) = C at this ⊢
  cases L with
  | error x =>
    cases C with
    | error y => cases this; rfl
    | ok y => cases this
  | ok a =>
    cases C with
    | error y => cases this
    | ok es =>
      simp only [Except.map, Except.ok.injEq] at this
      change Except.ok _ = Except.ok _
      rw [← this]

/-- a row of a train at a station that is not the last row of the train -/
def StopRow (td : Trains) (t : Int) (s : String) (row : Row) : Prop :=
  ∃ tt, TableOf td t tt ∧ row ∈ tt ∧ row.station = some s ∧ tt.getLast? ≠ some row

theorem last_station {tt : List Row} {r : Row} {s : String} {i : Nat} (ho : OnceEach tt)
    (hl : tt.getLast? = some r) (hs : r.station = some s)
    (hi : (trainImportantStations tt)[i]? = some s) :
    i = (trainImportantStations tt).length - 1 := by
  have ho' : (trainImportantStations tt).Nodup := ho
  obtain ⟨A, rfl⟩ := List.getLast?_eq_some_iff.1 hl
  have e : trainImportantStations (A ++ [r]) = trainImportantStations A ++ [s] := by
    simp [trainImportantStations, hs]
  rw [e] at hi ho' ⊢
  have hlt := (List.getElem?_eq_some_iff.1 hi).1
  have h2 : (trainImportantStations A ++ [s])[(trainImportantStations A).length]? = some s := by simp
  have := (List.nodup_iff_injective_getElem.1 ho')
  have h3 : (⟨i, hlt⟩ : Fin _) = ⟨(trainImportantStations A).length, by simp⟩ := by
    apply this
    simp only
    rw [(List.getElem?_eq_some_iff.1 hi).2, (List.getElem?_eq_some_iff.1 h2).2]
  have h4 := congrArg Fin.val h3
  simp at h4 ⊢
  exact h4

theorem stopEntries_iff {td : Trains} {st : Stations} (hw : WfTrains td) (hst : WfStations st)
    (htag : Tagged st td) (res : Int) {e : Int × Entry Row} (he : e ∈ td) :
    ∃ es, stopEntries st res e = .ok es ∧ ∀ x, x ∈ es ↔ ∃ row s,
      row ∈ e.2.2 ∧ row.station = some s ∧ e.2.2.getLast? ≠ some row ∧
      x = (key2 (.int e.1) (.str s), roundIf res (row.passingTime.getD 0),
        match row.turnaround with
        | some ta => [(key2 (.int e.1) (.str s), ta)]
        | .none => []) := by
  have ho := hw.once e he
  have hb := hw.blocks e he
  have ht := htag e he
  set n := (trainImportantStations e.2.2).length with hn
  have hcase : ∀ x ∈ (trainImportantStations e.2.2).zipIdx, ∃ row, row ∈ e.2.2 ∧
      row.station = some x.1 ∧ stopEntry st res e.1 e.2.2 n x =
        .ok (if e.2.2.getLast? = some row then [] else
          [(key2 (.int e.1) (.str x.1), roundIf res (row.passingTime.getD 0),
            match row.turnaround with
            | some ta => [(key2 (.int e.1) (.str x.1), ta)]
            | .none => [])]) := by
    rintro ⟨s, i⟩ hx
    rw [List.mk_mem_zipIdx_iff_getElem?] at hx
    obtain ⟨row, hr, hrs⟩ := mem_stations.1 (List.mem_of_getElem? hx)
    refine ⟨row, hr, hrs, ?_⟩
    obtain ⟨nb, h1, h2⟩ := subsequentBlock_eq hb hr
    unfold stopEntry
    simp only
    by_cases hl : e.2.2.getLast? = some row
    · rw [if_pos hl, if_pos (last_station ho hl hrs hx)]
      rw [stationBlocks_eq hst ht ho hr hrs]
      simp only [bind, Except.bind, nth, List.getElem?_cons_zero, h1, h2.2 hl, decide_true, if_true]
    · rw [if_neg hl]
      have hsk : (if i = n - 1 then
          (do
            let bs ← blocksList4station e.2.2 s st
            let b ← nth bs 0
            let nb ← subsequentBlock (e.2.2.map (·.path)) b
            .ok (decide (nb = none)) : Py Bool)
          else .ok false) = .ok false := by
        split
        · rw [stationBlocks_eq hst ht ho hr hrs]
          simp only [bind, Except.bind, nth, List.getElem?_cons_zero, h1]
          rw [decide_eq_false (fun h => hl (h2.1 h))]
        · rfl
      rw [hsk]
      simp only [bind, Except.bind, Bool.false_eq_true, if_false]
      rw [minimalStayTime_eq hst ht ho hb hr hrs]
  obtain ⟨es, hes⟩ := collect_succeeds
    (f := stopEntry st res e.1 e.2.2 n) fun x hx => by
      obtain ⟨row, _, _, h⟩ := hcase x hx
      exact ⟨_, h⟩
  refine ⟨es, hes, ?_⟩
  intro x
  rw [mem_collect hes]
  constructor
  · rintro ⟨y, hy, a, ha, hin⟩
    obtain ⟨row, hr, hrs, h⟩ := hcase y hy
    rw [ha] at h; cases h
    split at hin
    · cases hin
    · rename_i hl
      rw [List.mem_singleton] at hin
      exact ⟨row, y.1, hr, hrs, hl, hin⟩
  · rintro ⟨row, s, hr, hrs, hl, rfl⟩
    have hm := mem_stations.2 ⟨row, hr, hrs⟩
    obtain ⟨i, hi⟩ := List.getElem?_of_mem hm
    have hz : (s, i) ∈ (trainImportantStations e.2.2).zipIdx :=
      List.mk_mem_zipIdx_iff_getElem?.2 hi
    obtain ⟨row', hr', hrs', h⟩ := hcase (s, i) hz
    have := once_unique ho hr' hr hrs' hrs
    subst this
    refine ⟨(s, i), hz, _, h, ?_⟩
    rw [if_neg hl]
    exact List.mem_singleton_self _

/-- What the code computes: the time of a stop is the passing time of the station block (rounded if
`r = 1`) and every turnaround time (not rounded) is a preparation time; the last row of a train does
not count. -/
theorem C36_computed (td : Trains) (st : Stations) (hw : WfTrains td) (hst : WfStations st)
    (htag : Tagged st td) (res : Int) :
    ∃ stop prep, getTausStop td st res = .ok (stop, prep) ∧
      (∀ k v, Dict.get? stop k = some v ↔ ∃ t s row, StopRow td t s row ∧
        k = key2 (.int t) (.str s) ∧ v = roundIf res (row.passingTime.getD 0)) ∧
      (∀ k v, Dict.get? prep k = some v ↔ ∃ t s row, StopRow td t s row ∧
        k = key2 (.int t) (.str s) ∧ row.turnaround = some v) := by
  obtain ⟨es, hes⟩ := collect_succeeds (f := stopEntries st res) fun e he => by
    obtain ⟨x, hx, _⟩ := stopEntries_iff hw hst htag res he
    exact ⟨x, hx⟩
  have hmem : ∀ x, x ∈ es ↔ ∃ t s row, StopRow td t s row ∧
      x = (key2 (.int t) (.str s), roundIf res (row.passingTime.getD 0),
        match row.turnaround with
        | some ta => [(key2 (.int t) (.str s), ta)]
        | .none => []) := by
    intro x
    rw [mem_collect hes]
    constructor
    · rintro ⟨e, he, a, ha, hin⟩
      obtain ⟨y, hy, hiff⟩ := stopEntries_iff hw hst htag res he
      rw [ha] at hy; cases hy
      obtain ⟨row, s, h1, h2, h3, h4⟩ := (hiff x).1 hin
      exact ⟨e.1, s, row, ⟨e.2.2, TableOf.of_mem hw.keys he, h1, h2, h3⟩, h4⟩
    · rintro ⟨t, s, row, ⟨tt, ht, h1, h2, h3⟩, h4⟩
      obtain ⟨info, hm⟩ := ht.mem
      obtain ⟨y, hy, hiff⟩ := stopEntries_iff hw hst htag res hm
      exact ⟨_, hm, y, hy, (hiff x).2 ⟨row, s, h1, h2, h3, h4⟩⟩
  have huniq : ∀ t s row t' s' row', StopRow td t s row → StopRow td t' s' row' →
      key2 (.int t) (.str s) = key2 (.int t') (.str s') → row = row' := by
    rintro t s row t' s' row' ⟨tt, ht, h1, h2, _⟩ ⟨tt', ht', h1', h2', _⟩ hk
    obtain ⟨rfl, rfl⟩ := C52_intTrains_partial.1 _ _ _ _ hk
    have := ht.unique ht'
    subst this
    exact once_unique (hw.table ht).1 h1 h1' h2 h2'
  refine ⟨_, _, by rw [getTausStop_eq, hes]; rfl, ?_, ?_⟩
  · have hm1 : ∀ k v, (k, v) ∈ es.map (fun x => (x.1, x.2.1)) ↔ ∃ t s row, StopRow td t s row ∧
        k = key2 (.int t) (.str s) ∧ v = roundIf res (row.passingTime.getD 0) := by
      intro k v
      rw [List.mem_map]
      constructor
      · rintro ⟨x, hx, hxe⟩
        obtain ⟨t, s, row, h, rfl⟩ := (hmem x).1 hx
        simp only [Prod.mk.injEq] at hxe
        exact ⟨t, s, row, h, hxe.1.symm, hxe.2.symm⟩
      · rintro ⟨t, s, row, h, rfl, rfl⟩
        exact ⟨_, (hmem _).2 ⟨t, s, row, h, rfl⟩, rfl⟩
    intro k v
    rw [get?_build ?_ k v, hm1]
    intro k v v' h1 h2
    rw [hm1] at h1 h2
    obtain ⟨t, s, row, h, hk, rfl⟩ := h1
    obtain ⟨t', s', row', h', hk', rfl⟩ := h2
    rw [huniq _ _ _ _ _ _ h h' (hk ▸ hk')]
  · have hm1 : ∀ k v, (k, v) ∈ es.flatMap (fun x => x.2.2) ↔ ∃ t s row, StopRow td t s row ∧
        k = key2 (.int t) (.str s) ∧ row.turnaround = some v := by
      intro k v
      rw [List.mem_flatMap]
      constructor
      · rintro ⟨x, hx, hxe⟩
        obtain ⟨t, s, row, h, rfl⟩ := (hmem x).1 hx
        simp only at hxe
        split at hxe
        · rename_i ta hta
          simp only [List.mem_singleton, Prod.mk.injEq] at hxe
          exact ⟨t, s, row, h, hxe.1, by rw [hxe.2]; exact hta⟩
        · cases hxe
      · rintro ⟨t, s, row, h, rfl, hta⟩
        refine ⟨_, (hmem _).2 ⟨t, s, row, h, rfl⟩, ?_⟩
        simp only [hta, List.mem_singleton]
    intro k v
    rw [get?_build ?_ k v, hm1]
    intro k v v' h1 h2
    rw [hm1] at h1 h2
    obtain ⟨t, s, row, h, hk, hta⟩ := h1
    obtain ⟨t', s', row', h', hk', hta'⟩ := h2
    rw [huniq _ _ _ _ _ _ h h' (hk ▸ hk'), hta'] at hta
    exact (Option.some.inj hta).symm

/-- the row is the first one of the train at a station -/
def FirstStop (td : Trains) (t : Int) (row : Row) : Prop :=
  ∃ pre post, TableOf td t (pre ++ row :: post) ∧ ∀ r ∈ pre, r.station = none

/-- C36, full statement: the time of a stop is the passing time of the station block, plus the
turnaround time unless it is the first station of the train; the turnaround time at the first
station is the preparation time. -/
def C36_statement (td : Trains) (res : Int) (stop prep : Dict String ℚ) : Prop :=
  ∀ t s row, StopRow td t s row →
    (FirstStop td t row →
      Dict.get? stop (key2 (.int t) (.str s)) = some (roundIf res (row.passingTime.getD 0)) ∧
      Dict.get? prep (key2 (.int t) (.str s)) = row.turnaround) ∧
    (¬ FirstStop td t row →
      Dict.get? stop (key2 (.int t) (.str s)) =
        some (roundIf res (row.passingTime.getD 0 + row.turnaround.getD 0)) ∧
      Dict.get? prep (key2 (.int t) (.str s)) = none)

theorem option_ext_iff {α : Type} {a b : Option α} (h : ∀ v, a = some v ↔ b = some v) : a = b := by
  cases a with
  | none =>
    cases b with
    | none => rfl
    | some v => exact absurd ((h v).2 rfl) (by simp)
  | some v => exact ((h v).1 rfl).symm

/-- C36 for trains with turnaround times at their first stations only. Missing: turnaround times at
later stations, for which the statement is false. -/
theorem C36_stop_partial (td : Trains) (st : Stations) (hw : WfTrains td) (hst : WfStations st)
    (htag : Tagged st td) (res : Int) (stop prep : Dict String ℚ)
    (hg : getTausStop td st res = .ok (stop, prep))
    (hta : ∀ t s row, StopRow td t s row → ¬ FirstStop td t row → row.turnaround = none) :
    C36_statement td res stop prep := by
  obtain ⟨stop', prep', h1, h2, h3⟩ := C36_computed td st hw hst htag res
  rw [hg] at h1
  simp only [Except.ok.injEq, Prod.mk.injEq] at h1
  obtain ⟨rfl, rfl⟩ := h1
  intro t s row hrow
  have hs : Dict.get? stop (key2 (.int t) (.str s)) = some (roundIf res (row.passingTime.getD 0)) :=
    (h2 _ _).2 ⟨t, s, row, hrow, rfl, rfl⟩
  have hp : Dict.get? prep (key2 (.int t) (.str s)) = row.turnaround := by
    apply option_ext_iff
    intro v
    rw [h3]
    constructor
    · rintro ⟨t', s', row', ⟨tt', ht', a', b', _⟩, hk, hv⟩
      obtain ⟨rfl, rfl⟩ := C52_intTrains_partial.1 _ _ _ _ hk
      obtain ⟨tt, ht, a, b, _⟩ := hrow
      have := ht.unique ht'
      subst this
      rw [once_unique (hw.table ht).1 a a' b b']
      exact hv
    · intro hv
      exact ⟨t, s, row, hrow, rfl, hv⟩
  refine ⟨fun _ => ⟨hs, hp⟩, fun hf => ?_⟩
  have hz := hta t s row hrow hf
  rw [hz] at hp ⊢
  refine ⟨?_, hp⟩
  rw [hs]
  simp

/-- stations of `exampleTrains` -/
def threeStations : Stations := [("A", ["a"]), ("B", ["b", "b2"]), ("C", ["c"])]

theorem wfStations_of_check {st : Stations} (h1 : (Dict.keys st).Nodup)
    (h2 : (st.flatMap fun e => e.2).Nodup) : WfStations st := by
  rw [List.nodup_flatMap] at h2
  refine ⟨⟨h1, ?_⟩, h2.1⟩
  rintro b s s' ⟨bs, hm, hb⟩ ⟨bs', hm', hb'⟩
  by_contra hne
  obtain ⟨i, hi⟩ := List.getElem?_of_mem hm
  obtain ⟨j, hj⟩ := List.getElem?_of_mem hm'
  have hpw := List.pairwise_iff_getElem.1 h2.2
  obtain ⟨hi1, hi2⟩ := List.getElem?_eq_some_iff.1 hi
  obtain ⟨hj1, hj2⟩ := List.getElem?_eq_some_iff.1 hj
  rcases lt_trichotomy i j with h | h | h
  · have := hpw i j hi1 hj1 h
    simp only [Function.onFun, hi2, hj2] at this
    exact this hb hb'
  · subst h
    rw [hi2] at hj2
    cases hj2; exact hne rfl
  · have := hpw j i hj1 hi1 h
    simp only [Function.onFun, hi2, hj2] at this
    exact this hb' hb

theorem threeStations_wf : WfStations threeStations :=
  wfStations_of_check (by decide +kernel) (by decide +kernel)

theorem tagged_of_check {st : Stations} (hd : DisjointStations st) {td : Trains}
    (h : ∀ e ∈ td, ∀ r ∈ e.2.2, r.station = getBlockStation r.path st) : Tagged st td := by
  intro e he r hr s
  rw [h e he r hr]
  exact getBlockStation_iff hd

theorem exampleTrains_tagged : Tagged threeStations exampleTrains :=
  tagged_of_check threeStations_wf.1 (by decide +kernel)

/-- C36 is false of the code: the turnaround time of train 1 at its second station `B` is not part
of the stop but a preparation time. -/
theorem C36_false : ∃ stop prep, getTausStop exampleTrains threeStations 0 = .ok (stop, prep) ∧
    ¬ C36_statement exampleTrains 0 stop prep := by
  refine ⟨[("1_A", 1), ("1_B", 1), ("2_B", 1)], [("1_B", 3), ("2_B", 7)], by decide +kernel, ?_⟩
  intro h
  have hrow : StopRow exampleTrains 1 "B"
      { path := "b", station := some "B", passingTime := some 1, turnaround := some 3 } :=
    ⟨_, ⟨_, rfl⟩, by decide +kernel, by decide +kernel, by decide +kernel⟩
  have h1 := (h 1 "B" _ hrow).2 ?_
  · have := h1.2
    revert this; decide +kernel
  · rintro ⟨pre, post, ⟨info, ht⟩, hpre⟩
    have ht' := congrArg (Option.map Prod.snd) ht
    cases pre with
    | nil =>
      have := congrArg (Option.map fun l => (l.map (·.path)).head?) ht'
      simp [exampleTrains, Dict.get?] at this
    | cons x pre =>
      have h2 := congrArg (Option.map fun l => (l.map (·.station)).head?) ht'
      simp only [exampleTrains, Dict.get?, if_true, Option.map_some, List.map_cons, List.head?_cons,
        List.cons_append] at h2
      rw [hpre x List.mem_cons_self] at h2
      cases h2

/-- the hypotheses of `C36_stop_partial` for a train with a turnaround time at its first station -/
example : WfTrains [exampleTrains[1]] ∧ WfStations threeStations ∧
    Tagged threeStations [exampleTrains[1]] ∧
    getTausStop [exampleTrains[1]] threeStations 0 = .ok ([("2_B", 1)], [("2_B", 7)]) := by
  refine ⟨⟨by decide +kernel, by unfold OnceEach; decide +kernel,
    by unfold BlocksOnce; decide +kernel⟩, threeStations_wf, ?_, by decide +kernel⟩
  intro e he
  exact exampleTrains_tagged e (by simp only [List.mem_singleton] at he; subst he; simp [exampleTrains])

end Verif
