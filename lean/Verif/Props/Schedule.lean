import Verif.Props.Clock
import Verif.Props.Taus

/-!
# C38: schedule and initial conditions
-/

namespace Verif

/-- both texts are times of day, and `v` is the number of minutes from the first to the second -/
def MinutesFrom (t1 t2 : String) (v : ℚ) : Prop :=
  ∃ h1 m1 h2 m2, IsClock t1 h1 m1 ∧ IsClock t2 h2 m2 ∧
    v = ((60 * h2 + m2 : Nat) : ℚ) - ((60 * h1 + m1 : Nat) : ℚ)

theorem calcTimeDiff_iff {t1 t2 : String} {v : ℚ} :
    calcTimeDiff t1 t2 = .ok v ↔ MinutesFrom t1 t2 v := by
  constructor
  · intro h
    by_cases c1 : ∃ x y, IsClock t1 x y
    · by_cases c2 : ∃ x y, IsClock t2 x y
      · obtain ⟨x1, y1, c1⟩ := c1
        obtain ⟨x2, y2, c2⟩ := c2
        rw [C37_minutes c1 c2] at h
        cases h
        exact ⟨_, _, _, _, c1, c2, rfl⟩
      · rw [C37_malformed (.inr c2)] at h; cases h
    · rw [C37_malformed (.inl c1)] at h; cases h
  · rintro ⟨h1, m1, h2, m2, c1, c2, rfl⟩
    exact C37_minutes c1 c2

/-- `dep` is the departure time of the train at `s`: the one of the first row with this station and
a departure time -/
def FirstDep (tt : List Row) (s dep : String) : Prop :=
  ∃ pre row post, tt = pre ++ row :: post ∧ row.station = some s ∧ row.dep = some dep ∧
    ∀ r ∈ pre, r.station = some s → r.dep = none

/-- the row is the first one at an important station -/
def FirstStation (tt : List Row) (s : String) (row : Row) : Prop :=
  ∃ pre post, tt = pre ++ row :: post ∧ row.station = some s ∧ ∀ r ∈ pre, r.station = none

/-- the initial condition given by the first row at a station -/
def InitialTime (t1 : String) (row : Row) (v : ℚ) : Prop :=
  (∃ d, row.dep = some d ∧ MinutesFrom t1 d v) ∨
  (row.dep = none ∧ ∃ a, row.approxEnter = some a ∧ MinutesFrom t1 a v) ∨
  (row.dep = none ∧ row.approxEnter = none ∧ v = 0)

/-- the rows that `get_schedule_per_train` keeps -/
def depRows (tt : List Row) : Dict String String :=
  tt.filterMap fun r =>
    match r.station, r.dep with
    | some s, some d => some (s, d)
    | _, _ => none

theorem get?_depRows {tt : List Row} {s dep : String} :
    Dict.get? (depRows tt) s = some dep ↔ FirstDep tt s dep := by
  induction tt with
  | nil =>
    simp only [depRows, List.filterMap_nil, Dict.get?, reduceCtorEq, false_iff]
    rintro ⟨pre, row, post, h, _⟩
    cases pre <;> cases h
  | cons r tt ih =>
    have skip : (r.station = some s → r.dep = none) → (FirstDep tt s dep ↔ FirstDep (r :: tt) s dep) := by
      intro hr
      constructor
      · rintro ⟨pre, row, post, rfl, h1, h2, h3⟩
        refine ⟨r :: pre, row, post, rfl, h1, h2, ?_⟩
        intro x hx
        rcases List.mem_cons.1 hx with rfl | hx
        · exact hr
        · exact h3 x hx
      · rintro ⟨pre, row, post, h, h1, h2, h3⟩
        cases pre with
        | nil =>
          simp only [List.nil_append, List.cons.injEq] at h
          obtain ⟨rfl, rfl⟩ := h
          rw [hr h1] at h2; cases h2
        | cons x pre =>
          simp only [List.cons_append, List.cons.injEq] at h
          obtain ⟨rfl, rfl⟩ := h
          exact ⟨pre, row, post, rfl, h1, h2, fun y hy => h3 y (List.mem_cons_of_mem _ hy)⟩
    cases hs : r.station with
    | none =>
      rw [← skip (by simp [hs]), ← ih]
      unfold depRows
      rw [List.filterMap_cons]
      simp only [hs]
    | some s' =>
      cases hd : r.dep with
      | none =>
        rw [← skip (by simp [hd]), ← ih]
        unfold depRows
        rw [List.filterMap_cons]
        simp only [hs, hd]
      | some d' =>
        by_cases he : s' = s
        · subst he
          have : Dict.get? (depRows (r :: tt)) s' = some d' := by
            unfold depRows
            rw [List.filterMap_cons]
            simp only [hs, hd]
            simp [Dict.get?]
          rw [this]
          constructor
          · rintro ⟨⟩
            exact ⟨[], r, tt, rfl, hs, hd, by simp⟩
          · rintro ⟨pre, row, post, h, h1, h2, h3⟩
            cases pre with
            | nil =>
              simp only [List.nil_append, List.cons.injEq] at h
              obtain ⟨rfl, rfl⟩ := h
              rw [hd] at h2; exact h2
            | cons x pre =>
              simp only [List.cons_append, List.cons.injEq] at h
              obtain ⟨rfl, rfl⟩ := h
              rw [h3 r List.mem_cons_self hs] at hd; cases hd
        · rw [← skip (by rw [hs]; rintro ⟨⟩; exact absurd rfl he), ← ih]
          unfold depRows
          rw [List.filterMap_cons]
          simp only [hs, hd]
          rw [Dict.get?, if_neg he]

theorem getSchedulePerTrain_eq (tt : List Row) : getSchedulePerTrain tt =
    Dict.update [] ((depRows tt).map fun e => (e.1, (Dict.get? (depRows tt) e.1).getD "")) := by
  unfold getSchedulePerTrain Dict.update
  rw [List.foldl_map]
  rfl

theorem get?_perTrain {tt : List Row} {s dep : String} :
    Dict.get? (getSchedulePerTrain tt) s = some dep ↔ FirstDep tt s dep := by
  rw [getSchedulePerTrain_eq, get?_build, ← get?_depRows, List.mem_map]
  · constructor
    · rintro ⟨⟨a, b⟩, hm, he⟩
      simp only [Prod.mk.injEq] at he
      obtain ⟨rfl, rfl⟩ := he
      have := (Dict.get?_isSome (depRows tt) a).2 (List.mem_map_of_mem (f := Prod.fst) hm)
      obtain ⟨v, hv⟩ := Option.isSome_iff_exists.1 this
      rw [hv]; rfl
    · intro h
      exact ⟨(s, dep), Dict.mem_of_get? h, by simp [h]⟩
  · intro k v v' h1 h2
    obtain ⟨x, _, hx⟩ := List.mem_map.1 h1
    obtain ⟨y, _, hy⟩ := List.mem_map.1 h2
    simp only [Prod.mk.injEq] at hx hy
    rw [← hx.2, ← hy.2, hx.1, hy.1]

theorem mem_perTrain {tt : List Row} {s dep : String} :
    (s, dep) ∈ getSchedulePerTrain tt ↔ FirstDep tt s dep := by
  rw [← get?_perTrain]
  constructor
  · intro h
    refine Dict.get?_of_mem ?_ h
    rw [getSchedulePerTrain_eq]
    exact keys_update_nodup (by simp [Dict.keys])
  · exact Dict.mem_of_get?

/-- the entries of one train -/
def schedEntries (t1 : String) (e : Int × Entry Row) : Py (Dict String ℚ) :=
  collect (getSchedulePerTrain e.2.2) fun x => do
    let t ← calcTimeDiff t1 x.2
    .ok [(key2 (.int e.1) (.str x.1), t)]

theorem getSchedule_eq (td : Trains) (t1 : String) :
    getSchedule td t1 = (collect td (schedEntries t1) >>= fun es => .ok (Dict.update [] es)) := by
  unfold getSchedule
  refine loop_update (fun d e _ => ?_) []
  refine loop_update (fun d x _ => ?_) d
  cases calcTimeDiff t1 x.2 with
  | error e => rfl
  | ok t => rfl

theorem FirstDep.unique {tt : List Row} {s d d' : String} (h : FirstDep tt s d)
    (h' : FirstDep tt s d') : d = d' := by
  rw [← get?_depRows] at h h'
  rw [h] at h'; exact Option.some.inj h'

theorem MinutesFrom.unique {t1 t2 : String} {v v' : ℚ} (h : MinutesFrom t1 t2 v)
    (h' : MinutesFrom t1 t2 v') : v = v' := by
  rw [← calcTimeDiff_iff] at h h'
  rw [h] at h'; exact Except.ok.inj h'

/-- C38, schedule: there is an entry exactly for every train and every important station with a
departure time, and it is the number of minutes from the reference time. -/
theorem C38_schedule (td : Trains) (hk : (Dict.keys td).Nodup) (t1 : String) (d : Dict String ℚ)
    (h : getSchedule td t1 = .ok d) (k : String) (v : ℚ) :
    Dict.get? d k = some v ↔ ∃ t tt s dep, TableOf td t tt ∧ FirstDep tt s dep ∧
      k = key2 (.int t) (.str s) ∧ MinutesFrom t1 dep v := by
  rw [getSchedule_eq] at h
  obtain ⟨es, hes, h⟩ := bind_ok h
  cases h
  have hmem : ∀ k v, (k, v) ∈ es ↔ ∃ t tt s dep, TableOf td t tt ∧ FirstDep tt s dep ∧
      k = key2 (.int t) (.str s) ∧ MinutesFrom t1 dep v := by
    intro k v
    rw [mem_collect hes]
    constructor
    · rintro ⟨e, he, a, ha, hin⟩
      rw [schedEntries, ] at ha
      obtain ⟨⟨s, dep⟩, hx, b, hb, hin⟩ := (mem_collect ha _).1 hin
      obtain ⟨w, hw, hb⟩ := bind_ok hb
      cases hb
      simp only [List.mem_singleton, Prod.mk.injEq] at hin
      obtain ⟨rfl, rfl⟩ := hin
      exact ⟨e.1, e.2.2, s, dep, TableOf.of_mem hk he, mem_perTrain.1 hx, rfl,
        calcTimeDiff_iff.1 hw⟩
    · rintro ⟨t, tt, s, dep, ht, hf, rfl, hm⟩
      obtain ⟨info, hin⟩ := ht.mem
      obtain ⟨a, ha, _⟩ := (collect_ok hes).1 _ hin
      refine ⟨_, hin, a, ha, ?_⟩
      rw [schedEntries] at ha
      rw [mem_collect ha]
      refine ⟨(s, dep), mem_perTrain.2 hf, [(key2 (.int t) (.str s), v)], ?_, by simp⟩
      simp only [calcTimeDiff_iff.2 hm, bind, Except.bind]
  rw [get?_build ?_ k v, hmem]
  intro k v v' h1 h2
  obtain ⟨t, tt, s, dep, ht, hf, hk1, hm⟩ := (hmem _ _).1 h1
  obtain ⟨t', tt', s', dep', ht', hf', hk2, hm'⟩ := (hmem _ _).1 h2
  obtain ⟨rfl, rfl⟩ := C52_intTrains_partial.1 _ _ _ _ (hk1 ▸ hk2)
  have := ht.unique ht'
  subst this
  have := hf.unique hf'
  subst this
  exact hm.unique hm'

/-- C38, schedule: it is found whenever the times that are read are times of day, and only then. -/
theorem C38_schedule_found (td : Trains) (hk : (Dict.keys td).Nodup) (t1 : String) :
    (∃ d, getSchedule td t1 = .ok d) ↔
      ∀ t tt s dep, TableOf td t tt → FirstDep tt s dep → ∃ v, MinutesFrom t1 dep v := by
  constructor
  · rintro ⟨d, h⟩ t tt s dep ht hf
    rw [getSchedule_eq] at h
    obtain ⟨es, hes, h⟩ := bind_ok h
    obtain ⟨info, hin⟩ := ht.mem
    obtain ⟨a, ha, _⟩ := (collect_ok hes).1 _ hin
    rw [schedEntries] at ha
    obtain ⟨b, hb, _⟩ := (collect_ok ha).1 _ (mem_perTrain.2 hf)
    obtain ⟨w, hw, _⟩ := bind_ok hb
    exact ⟨w, calcTimeDiff_iff.1 hw⟩
  · intro h
    obtain ⟨es, hes⟩ := collect_succeeds (xs := td) (f := schedEntries t1) fun e he => by
      refine collect_succeeds fun x hx => ?_
      obtain ⟨v, hv⟩ := h e.1 e.2.2 x.1 x.2 (TableOf.of_mem hk he) (mem_perTrain.1 hx)
      rw [calcTimeDiff_iff.2 hv]
      exact ⟨_, rfl⟩
    exact ⟨_, by rw [getSchedule_eq, hes]; rfl⟩

/-! ## Initial conditions -/

/-- the entry of one train -/
def initialEntry (t1 : String) (e : Int × Entry Row) : Py (Dict String ℚ) := do
  let row ← nth (e.2.2.filter fun r => r.station.isSome) 0
  let s := row.station.getD ""
  let t2 : Option String := match row.dep with
    | some x => some x
    | .none => row.approxEnter
  let time ← (match t2 with
    | .none => .ok 0
    | some x => calcTimeDiff t1 x : Py ℚ)
  .ok [(key2 (.int e.1) (.str s), time)]

theorem getInitial_eq (td : Trains) (t1 : String) : getInitialConditions td t1 =
    (collect td (initialEntry t1) >>= fun es => .ok (Dict.update [] es)) := by
  unfold getInitialConditions
  refine loop_update (fun d e _ => ?_) []
  unfold initialEntry
  cases nth (e.2.2.filter fun r => r.station.isSome) 0 with
  | error x => rfl
  | ok row =>
    simp only [bind, Except.bind]
    cases row.dep with
    | some x =>
      simp only
      cases calcTimeDiff t1 x <;> rfl
    | none =>
      cases row.approxEnter with
      | none => rfl
      | some x =>
        simp only
        cases calcTimeDiff t1 x <;> rfl

theorem firstStation_iff {tt : List Row} {row : Row} :
    nth (tt.filter fun r => r.station.isSome) 0 = .ok row ↔ ∃ s, FirstStation tt s row := by
  unfold nth
  induction tt with
  | nil =>
    simp only [List.filter_nil, List.getElem?_nil, reduceCtorEq, false_iff]
    rintro ⟨s, pre, post, h, _⟩
    cases pre <;> cases h
  | cons r tt ih =>
    cases hs : r.station with
    | none =>
      rw [List.filter_cons_of_neg (by simp [hs]), ih]
      constructor
      · rintro ⟨s, pre, post, rfl, h1, h2⟩
        refine ⟨s, r :: pre, post, rfl, h1, ?_⟩
        intro x hx
        rcases List.mem_cons.1 hx with rfl | hx
        · exact hs
        · exact h2 x hx
      · rintro ⟨s, pre, post, h, h1, h2⟩
        cases pre with
        | nil =>
          simp only [List.nil_append, List.cons.injEq] at h
          obtain ⟨rfl, rfl⟩ := h
          rw [hs] at h1; cases h1
        | cons x pre =>
          simp only [List.cons_append, List.cons.injEq] at h
          obtain ⟨rfl, rfl⟩ := h
          exact ⟨s, pre, post, rfl, h1, fun y hy => h2 y (List.mem_cons_of_mem _ hy)⟩
    | some s' =>
      rw [List.filter_cons_of_pos (by simp [hs])]
      simp only [List.getElem?_cons_zero, Except.ok.injEq]
      constructor
      · rintro rfl
        exact ⟨s', [], tt, rfl, hs, by simp⟩
      · rintro ⟨s, pre, post, h, h1, h2⟩
        cases pre with
        | nil =>
          simp only [List.nil_append, List.cons.injEq] at h
          exact h.1
        | cons x pre =>
          simp only [List.cons_append, List.cons.injEq] at h
          obtain ⟨rfl, rfl⟩ := h
          rw [h2 r List.mem_cons_self] at hs; cases hs

theorem initialTime_iff {t1 : String} {row : Row} {v : ℚ} :
    (match (match row.dep with
      | some x => some x
      | .none => row.approxEnter : Option String) with
    | .none => .ok 0
    | some x => calcTimeDiff t1 x : Py ℚ) = .ok v ↔ InitialTime t1 row v := by
  unfold InitialTime
  cases row.dep with
  | some x =>
    simp only [calcTimeDiff_iff]
    simp
  | none =>
    cases row.approxEnter with
    | some x =>
      simp only [calcTimeDiff_iff]
      simp
    | none => simp [eq_comm]

theorem initialEntry_iff {t1 : String} {e : Int × Entry Row} {es : Dict String ℚ} :
    initialEntry t1 e = .ok es ↔ ∃ s row v, FirstStation e.2.2 s row ∧ InitialTime t1 row v ∧
      es = [(key2 (.int e.1) (.str s), v)] := by
  unfold initialEntry
  constructor
  · intro h
    obtain ⟨row, hrow, h⟩ := bind_ok h
    obtain ⟨v, hv, h⟩ := bind_ok h
    obtain ⟨s, hs⟩ := firstStation_iff.1 hrow
    have hst : row.station = some s := by obtain ⟨_, _, _, h, _⟩ := hs; exact h
    rw [hst] at h
    cases h
    exact ⟨s, row, v, hs, initialTime_iff.1 hv, rfl⟩
  · rintro ⟨s, row, v, hs, hv, rfl⟩
    have hst : row.station = some s := by obtain ⟨_, _, _, h, _⟩ := hs; exact h
    rw [firstStation_iff.2 ⟨s, hs⟩]
    simp only [bind, Except.bind]
    rw [initialTime_iff.2 hv, hst]
    rfl

theorem FirstStation.unique {tt : List Row} {s s' : String} {row row' : Row}
    (h : FirstStation tt s row) (h' : FirstStation tt s' row') : s = s' ∧ row = row' := by
  have h1 := firstStation_iff.2 ⟨s, h⟩
  rw [firstStation_iff.2 ⟨s', h'⟩] at h1
  cases h1
  obtain ⟨_, _, _, h2, _⟩ := h
  obtain ⟨_, _, _, h3, _⟩ := h'
  rw [h2] at h3
  exact ⟨Option.some.inj h3, rfl⟩

theorem InitialTime.unique {t1 : String} {row : Row} {v v' : ℚ} (h : InitialTime t1 row v)
    (h' : InitialTime t1 row v') : v = v' := by
  rw [← initialTime_iff] at h h'
  rw [h] at h'; exact Except.ok.inj h'

/-- C38, initial conditions: the entries are those of the first important stations of the trains,
from the departure time, else the approximate time of entering, else 0; every train has one. -/
theorem C38_initial (td : Trains) (hk : (Dict.keys td).Nodup) (t1 : String) (d : Dict String ℚ)
    (h : getInitialConditions td t1 = .ok d) :
    (∀ k v, Dict.get? d k = some v ↔ ∃ t tt s row, TableOf td t tt ∧ FirstStation tt s row ∧
      k = key2 (.int t) (.str s) ∧ InitialTime t1 row v) ∧
    (∀ t tt, TableOf td t tt → ∃! s, Dict.has d (key2 (.int t) (.str s)) = true) := by
  rw [getInitial_eq] at h
  obtain ⟨es, hes, h⟩ := bind_ok h
  cases h
  have hmem : ∀ k v, (k, v) ∈ es ↔ ∃ t tt s row, TableOf td t tt ∧ FirstStation tt s row ∧
      k = key2 (.int t) (.str s) ∧ InitialTime t1 row v := by
    intro k v
    rw [mem_collect hes]
    constructor
    · rintro ⟨e, he, a, ha, hin⟩
      obtain ⟨s, row, w, h1, h2, rfl⟩ := initialEntry_iff.1 ha
      simp only [List.mem_singleton, Prod.mk.injEq] at hin
      obtain ⟨rfl, rfl⟩ := hin
      exact ⟨e.1, e.2.2, s, row, TableOf.of_mem hk he, h1, rfl, h2⟩
    · rintro ⟨t, tt, s, row, ht, hf, rfl, hm⟩
      obtain ⟨info, hin⟩ := ht.mem
      exact ⟨_, hin, _, initialEntry_iff.2 ⟨s, row, v, hf, hm, rfl⟩, by simp⟩
  have hiff : ∀ k v, Dict.get? (Dict.update [] es) k = some v ↔
      ∃ t tt s row, TableOf td t tt ∧ FirstStation tt s row ∧
        k = key2 (.int t) (.str s) ∧ InitialTime t1 row v := by
    intro k v
    rw [get?_build ?_ k v, hmem]
    intro k v v' h1 h2
    obtain ⟨t, tt, s, row, ht, hf, hk1, hm⟩ := (hmem _ _).1 h1
    obtain ⟨t', tt', s', row', ht', hf', hk2, hm'⟩ := (hmem _ _).1 h2
    obtain ⟨rfl, rfl⟩ := C52_intTrains_partial.1 _ _ _ _ (hk1 ▸ hk2)
    have := ht.unique ht'
    subst this
    obtain ⟨_, rfl⟩ := hf.unique hf'
    exact hm.unique hm'
  refine ⟨hiff, ?_⟩
  intro t tt ht
  obtain ⟨info, hin⟩ := ht.mem
  obtain ⟨a, ha, _⟩ := (collect_ok hes).1 _ hin
  obtain ⟨s, row, w, h1, h2, rfl⟩ := initialEntry_iff.1 ha
  refine ⟨s, ?_, ?_⟩
  · simp only [Dict.has, (hiff _ _).2 ⟨t, tt, s, row, ht, h1, rfl, h2⟩, Option.isSome_some]
  · intro s' hs'
    simp only [Dict.has] at hs'
    obtain ⟨v, hv⟩ := Option.isSome_iff_exists.1 hs'
    obtain ⟨t', tt', s'', row', ht', h1', hk', _⟩ := (hiff _ _).1 hv
    obtain ⟨rfl, rfl⟩ := C52_intTrains_partial.1 _ _ _ _ hk'
    have := ht.unique ht'
    subst this
    exact (h1'.unique h1).1

/-- C38, initial conditions: they are found exactly if every train has an important station and the
times that are read are times of day. -/
theorem C38_initial_found (td : Trains) (hk : (Dict.keys td).Nodup) (t1 : String) :
    (∃ d, getInitialConditions td t1 = .ok d) ↔
      ∀ t tt, TableOf td t tt → ∃ s row v, FirstStation tt s row ∧ InitialTime t1 row v := by
  constructor
  · rintro ⟨d, h⟩ t tt ht
    rw [getInitial_eq] at h
    obtain ⟨es, hes, h⟩ := bind_ok h
    obtain ⟨info, hin⟩ := ht.mem
    obtain ⟨a, ha, _⟩ := (collect_ok hes).1 _ hin
    obtain ⟨s, row, w, h1, h2, _⟩ := initialEntry_iff.1 ha
    exact ⟨s, row, w, h1, h2⟩
  · intro h
    obtain ⟨es, hes⟩ := collect_succeeds (xs := td) (f := initialEntry t1) fun e he => by
      obtain ⟨s, row, v, h1, h2⟩ := h e.1 e.2.2 (TableOf.of_mem hk he)
      exact ⟨_, initialEntry_iff.2 ⟨s, row, v, h1, h2, rfl⟩⟩
    exact ⟨_, by rw [getInitial_eq, hes]; rfl⟩

/-- three trains: one with departures at two of its stations, one with an approximate time of
entering, one without times -/
def clockTrains : Trains :=
  [(1, (["KS - Os"], [{ path := "x" }, { path := "a", station := some "A", dep := some "16:05" },
     { path := "l1" }, { path := "b", station := some "B", dep := some "16:20" },
     { path := "c", station := some "C" }])),
   (2, (["IC - IC"], [{ path := "b", station := some "B", approxEnter := some "15:58" },
     { path := "a", station := some "A", dep := some "16:10" }])),
   (3, (["IC - IC"], [{ path := "c", station := some "C" }]))]

/-- the hypotheses of the theorems, and what is computed -/
example : (Dict.keys clockTrains).Nodup ∧
    getSchedule clockTrains "16:00" = .ok [("1_A", 5), ("1_B", 20), ("2_A", 10)] ∧
    getInitialConditions clockTrains "16:00" = .ok [("1_A", 5), ("2_B", -2), ("3_C", 0)] := by
  decide +kernel

/-- a time that is not a time of day, and a train without important stations -/
example : getSchedule [(1, ([], [{ path := "a", station := some "A", dep := some "25:05" }]))] "16:00"
      = .error .valueError ∧
    getInitialConditions [(1, ([], [{ path := "a" }]))] "16:00" = .error .indexError := by
  decide +kernel

end Verif
