import Verif.Proofs.Stations
import Verif.Proofs.Emit
import Verif.Props.Keys

/-!
# C35: passing times cover exactly the consecutive station pairs
-/

namespace Verif

/-- the names of the stations of the trains are not empty and contain no underscore -/
def StationNamesOK (td : Trains) : Prop :=
  ∀ e ∈ td, ∀ r ∈ e.2.2, ∀ s, r.station = some s → s ≠ "" ∧ Plain (.str s)

/-- Train dictionary as assumed below: no train twice (it is a Python dict), and in every timetable
no block and no station twice. -/
structure WfTrains (td : Trains) : Prop where
  keys : (Dict.keys td).Nodup
  once : ∀ e ∈ td, OnceEach e.2.2
  blocks : ∀ e ∈ td, BlocksOnce e.2.2

theorem TableOf.mem {td : Trains} {t : Int} {tt : List Row} (h : TableOf td t tt) :
    ∃ info, (t, (info, tt)) ∈ td := by
  obtain ⟨info, h⟩ := h
  exact ⟨info, Dict.mem_of_get? h⟩

theorem TableOf.of_mem {td : Trains} (hk : (Dict.keys td).Nodup) {e : Int × Entry Row}
    (h : e ∈ td) : TableOf td e.1 e.2.2 := ⟨e.2.1, Dict.get?_of_mem hk h⟩

theorem TableOf.unique {td : Trains} {t : Int} {tt tt' : List Row} (h : TableOf td t tt)
    (h' : TableOf td t tt') : tt = tt' := by
  obtain ⟨i, h⟩ := h
  obtain ⟨i', h'⟩ := h'
  rw [h] at h'
  cases h'; rfl

theorem WfTrains.table {td : Trains} (h : WfTrains td) {t : Int} {tt : List Row}
    (ht : TableOf td t tt) : OnceEach tt ∧ BlocksOnce tt := by
  obtain ⟨info, hm⟩ := ht.mem
  exact ⟨h.once _ hm, h.blocks _ hm⟩

/-- the entries of one train -/
def passEntries (r : Int) (e : Int × Entry Row) : Py (Dict String ℚ) :=
  collect (trainImportantStations e.2.2) fun s =>
    match nextStation e.2.2 s with
    | .none => .ok []
    | some s2 => do
      let t ← minimalPassingTime e.2.2 s s2 r
      .ok [(key3 (.int e.1) (.str s) (.str s2), t)]

theorem getTausPass_eq (td : Trains) (r : Int) :
    getTausPass td r = (collect td (passEntries r) >>= fun es => .ok (Dict.update [] es)) := by
  unfold getTausPass
  refine loop_update (fun d e _ => ?_) []
  refine loop_update (fun d s _ => ?_) d
  cases nextStation e.2.2 s with
  | none => rfl
  | some s2 =>
    simp only
    cases minimalPassingTime e.2.2 s s2 r with
    | error e => rfl
    | ok t => rfl

theorem passEntries_iff {td : Trains} (hw : WfTrains td) (hn : StationNamesOK td) (r : Int)
    {e : Int × Entry Row} (he : e ∈ td) :
    ∃ es, passEntries r e = .ok es ∧ ∀ k v, (k, v) ∈ es ↔ ∃ s s' mid,
      Consecutive e.2.2 s s' mid ∧ k = key3 (.int e.1) (.str s) (.str s') ∧
      v = roundIf r (timesOf mid).sum := by
  have ho := hw.once e he
  have hb := hw.blocks e he
  have hcase : ∀ s ∈ trainImportantStations e.2.2,
      (nextStation e.2.2 s = none ∨ ∃ s' mid, nextStation e.2.2 s = some s' ∧
        Consecutive e.2.2 s s' mid ∧
        minimalPassingTime e.2.2 s s' r = .ok (roundIf r (timesOf mid).sum)) := by
    intro s hs
    cases hnx : nextStation e.2.2 s with
    | none => exact .inl rfl
    | some s' =>
      obtain ⟨mid, hc⟩ := (next_iff ho).1 hnx
      obtain ⟨row, hr, hrs⟩ := mem_stations.1 hs
      exact .inr ⟨s', mid, rfl, hc,
        minimalPassing_eq ho hb (hn e he row hr s hrs).1 hc r⟩
  have hsucc : ∃ es, passEntries r e = .ok es := by
    refine collect_succeeds ?_
    intro s hs
    rcases hcase s hs with h | ⟨s', mid, h1, _, h3⟩
    · rw [h]; exact ⟨_, rfl⟩
    · rw [h1]; simp only; rw [h3]; exact ⟨_, rfl⟩
  obtain ⟨es, hes⟩ := hsucc
  refine ⟨es, hes, ?_⟩
  intro k v
  rw [mem_collect hes]
  constructor
  · rintro ⟨s, hs, a, ha, hin⟩
    rcases hcase s hs with h | ⟨s', mid, h1, h2, h3⟩
    · rw [h] at ha; cases ha; cases hin
    · rw [h1] at ha
      simp only at ha
      rw [h3] at ha
      cases ha
      simp only [List.mem_singleton, Prod.mk.injEq] at hin
      exact ⟨s, s', mid, h2, hin.1, hin.2⟩
  · rintro ⟨s, s', mid, hc, rfl, rfl⟩
    obtain ⟨row, hr, hrs⟩ := (consecutive_serves hc).1
    refine ⟨s, mem_stations.2 ⟨row, hr, hrs⟩, [_], ?_, List.mem_singleton_self _⟩
    rw [(next_iff ho).2 ⟨mid, hc⟩]
    simp only
    rw [minimalPassing_eq ho hb (hn e he row hr s hrs).1 hc r]
    rfl

theorem timesOf_eq {tt : List Row} (hb : BlocksOnce tt) {m m' : List Row} (hm : ∀ r ∈ m, r ∈ tt)
    (hm' : ∀ r ∈ m', r ∈ tt) (h : m.map (·.path) = m'.map (·.path)) : timesOf m = timesOf m' := by
  have h1 := passing_of_rows hb hm
  have h2 := passing_of_rows hb hm'
  rw [h, h2] at h1
  exact (Except.ok.inj h1).symm

/-- C35: there is an entry exactly for every train and every two consecutive important stations of
it, equal to the sum of the passing times of the rows between them (rounded if `r = 1`). -/
theorem C35_pass (td : Trains) (hw : WfTrains td) (hn : StationNamesOK td) (r : Int) :
    ∃ d, getTausPass td r = .ok d ∧ ∀ k v, Dict.get? d k = some v ↔
      ∃ t tt s s' mid, TableOf td t tt ∧ Consecutive tt s s' mid ∧
        k = key3 (.int t) (.str s) (.str s') ∧ v = roundIf r (timesOf mid).sum := by
  obtain ⟨es, hes⟩ := collect_succeeds (f := passEntries r) fun e he => by
    obtain ⟨x, hx, _⟩ := passEntries_iff hw hn r he
    exact ⟨x, hx⟩
  have hmem : ∀ k v, (k, v) ∈ es ↔ ∃ t tt s s' mid, TableOf td t tt ∧ Consecutive tt s s' mid ∧
      k = key3 (.int t) (.str s) (.str s') ∧ v = roundIf r (timesOf mid).sum := by
    intro k v
    rw [mem_collect hes]
    constructor
    · rintro ⟨e, he, a, ha, hin⟩
      obtain ⟨x, hx, hiff⟩ := passEntries_iff hw hn r he
      rw [ha] at hx; cases hx
      obtain ⟨s, s', mid, h1, h2, h3⟩ := (hiff k v).1 hin
      exact ⟨e.1, e.2.2, s, s', mid, TableOf.of_mem hw.keys he, h1, h2, h3⟩
    · rintro ⟨t, tt, s, s', mid, ht, h1, h2, h3⟩
      obtain ⟨info, hm⟩ := ht.mem
      obtain ⟨x, hx, hiff⟩ := passEntries_iff hw hn r hm
      exact ⟨_, hm, x, hx, (hiff k v).2 ⟨s, s', mid, h1, h2, h3⟩⟩
  refine ⟨Dict.update [] es, ?_, ?_⟩
  · rw [getTausPass_eq, hes]; rfl
  · intro k v
    rw [get?_build ?_ k v, hmem]
    intro k v v' h1 h2
    rw [hmem] at h1 h2
    obtain ⟨t, tt, s, s1, m, ht, hc, hk, rfl⟩ := h1
    obtain ⟨t', tt', u, u1, m', ht', hc', hk', rfl⟩ := h2
    rw [hk] at hk'
    obtain ⟨i, hi⟩ := ht.mem
    obtain ⟨i', hi'⟩ := ht'.mem
    obtain ⟨row, hr, hrs⟩ := (consecutive_serves hc).1
    obtain ⟨row', hr', hrs'⟩ := (consecutive_serves hc').1
    obtain ⟨rfl, rfl, rfl⟩ := C52_intTrains_partial.2.1 _ _ _ _ _ _
      (hn _ hi row hr _ hrs).2 (hn _ hi' row' hr' _ hrs').2 hk'
    have := ht.unique ht'
    subst this
    obtain ⟨ho, hb⟩ := hw.table ht
    rw [timesOf_eq hb (consecutive_mem hc) (consecutive_mem hc')
      (consecutive_unique ho hc hc').2]

/-- a train with two stations and one with three, on a line with two blocks between stations -/
def exampleTrains : Trains :=
  [(1, (["KS - Os"],
    [{ path := "a", station := some "A", passingTime := some 1, dep := some "12:00" },
     { path := "l1", passingTime := some 2 }, { path := "l2", passingTime := some (5/2) },
     { path := "b", station := some "B", passingTime := some 1, turnaround := some 3 },
     { path := "l3", passingTime := some 4 },
     { path := "c", station := some "C" }])),
   (2, (["IC - IC"],
    [{ path := "b", station := some "B", passingTime := some 1, turnaround := some 7 },
     { path := "l2", passingTime := some 1 }, { path := "l1", passingTime := some (1/2) },
     { path := "a", station := some "A", passingTime := some 1 }]))]

theorem exampleTrains_wf : WfTrains exampleTrains where
  keys := by decide +kernel
  once := by unfold OnceEach; decide +kernel
  blocks := by unfold BlocksOnce; decide +kernel

theorem exampleTrains_names : StationNamesOK exampleTrains := by
  have h : ∀ e ∈ exampleTrains, ∀ r ∈ e.2.2, r.station = none ∨ r.station = some "A" ∨
      r.station = some "B" ∨ r.station = some "C" := by decide +kernel
  intro e he r hr s hs
  rcases h e he r hr with h | h | h | h <;> rw [h] at hs <;> cases hs <;> decide

/-- the hypotheses of `C35_pass` and what it says for this example -/
example : WfTrains exampleTrains ∧ StationNamesOK exampleTrains ∧
    getTausPass exampleTrains 0 = .ok [("1_A_B", 9/2), ("1_B_C", 4), ("2_B_A", 3/2)] ∧
    getTausPass exampleTrains 1 = .ok [("1_A_B", 4), ("1_B_C", 4), ("2_B_A", 2)] :=
  ⟨exampleTrains_wf, exampleTrains_names, by decide +kernel, by decide +kernel⟩

/-- The hypothesis that a train has one block per station is needed: with two blocks of the station
`A` the time from `A` to the next station is missing. -/
theorem C35_once_needed : ∃ (td : Trains) (tt : List Row), td = [(1, ([], tt))] ∧ BlocksOnce tt ∧
    (∃ mid, Consecutive tt "A" "B" mid) ∧
    ∃ d, getTausPass td 0 = .ok d ∧ Dict.get? d "1_A_B" = none := by
  refine ⟨_, [{ path := "a1", station := some "A" }, { path := "a2", station := some "A" },
    { path := "l1", passingTime := some 2 }, { path := "b", station := some "B" }], rfl,
    by unfold BlocksOnce; decide +kernel,
    ⟨[{ path := "l1", passingTime := some 2 }], [{ path := "a1", station := some "A" }],
      { path := "a2", station := some "A" }, { path := "b", station := some "B" }, [], rfl, rfl, rfl,
      by simp⟩, [("1_A_A", 0)], by decide +kernel, by decide +kernel⟩

end Verif
