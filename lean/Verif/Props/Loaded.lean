import Verif.Props.Solvable

/-!
# C56: the scripts make an input, and a problem, of every readable table
-/

namespace Verif

variable {td : Trains} {st : Stations} {table : List PathRow} {t1 : String} {r : Int}
  {delays : List (Int × ℚ)} {ts : TrainSets} {tt : Timetable} {dmax : ℚ} {cat : Cat}

/-- The cells of the tables can be read: the reference time and the times of trains at stations are
times of day, the types of trains are known, the switches of the tracks that trains use in and out of
stations are readable; every train leaves some station; trains `n` and `10 n + 9` meet, and only in blocks of stations. -/
structure ReadableData (td : Trains) (st : Stations) (table : List PathRow) (t1 : String) : Prop where
  start : ∃ h m, IsClock t1 h m
  times : ∀ t rows, TableOf td t rows → ∀ row ∈ rows, row.station ≠ none → ∀ x,
    row.dep = some x ∨ row.approxEnter = some x → ∃ h m, IsClock x h m
  types : ∀ e ∈ td, ∃ ty rest, e.2.1 = ty :: rest ∧
    ty ∈ ["KS - Os", "PR - R", "KS - OsP", "IC - TLK", "IC - IC", "IC - EIP", "IC - EIC"]
  leaves : ∀ t ∈ Dict.keys td, ∃ s, Leaves td t s
  switches : ∀ a b, GoesFrom td a b → ∀ row ∈ table, Joins row a b →
    (∃ n, row.switches = .textInt n) ∨ (∃ l, row.switches = .textTuple l) ∨
    ∃ x y, row.switches = .float x y
  meet : AllMeet td
  place : ∀ n ∈ Dict.keys td, 10 * n + 9 ∈ Dict.keys td → ∀ b,
    Meets td n (10 * n + 9) b ∨ Meets td (10 * n + 9) n b → ∃ s, BelongsTo st b s

theorem lastWith_split {α : Type} (P : α → Prop) {xs : List α} (h : ∃ x ∈ xs, P x) :
    ∃ pre x post, xs = pre ++ x :: post ∧ P x ∧ ∀ y ∈ post, ¬ P y := by
  classical
  induction xs with
  | nil => obtain ⟨x, hx, -⟩ := h; cases hx
  | cons a xs ih =>
    by_cases hc : ∃ x ∈ xs, P x
    · obtain ⟨pre, x, post, rfl, hp, hn⟩ := ih hc
      exact ⟨a :: pre, x, post, rfl, hp, hn⟩
    · obtain ⟨x, hx, hp⟩ := h
      rcases List.mem_cons.1 hx with rfl | hx
      · exact ⟨[], x, xs, rfl, hp, fun y hy hp' => hc ⟨y, hy, hp'⟩⟩
      · exact absurd ⟨x, hx, hp⟩ hc

theorem firstWith_split {α : Type} (P : α → Prop) {xs : List α} (h : ∃ x ∈ xs, P x) :
    ∃ pre x post, xs = pre ++ x :: post ∧ P x ∧ ∀ y ∈ pre, ¬ P y := by
  obtain ⟨x, hx, hp⟩ := h
  obtain ⟨pre, y, post, e, hy, hn⟩ := lastWith_split P (xs := xs.reverse)
    ⟨x, List.mem_reverse.2 hx, hp⟩
  refine ⟨post.reverse, y, pre.reverse, ?_, hy, fun z hz => hn z (List.mem_reverse.1 hz)⟩
  have := congrArg List.reverse e
  simpa using this

theorem ReadableData.minutes (R : ReadableData td st table t1) {t : Int} {rows : List Row}
    (ht : TableOf td t rows) {row : Row} (hr : row ∈ rows) {s : String} (hs : row.station = some s)
    {x : String} (hx : row.dep = some x ∨ row.approxEnter = some x) : ∃ v, MinutesFrom t1 x v := by
  obtain ⟨h1, m1, e1⟩ := R.start
  obtain ⟨h2, m2, e2⟩ := R.times t rows ht row hr (by rw [hs]; simp) x hx
  exact ⟨_, h1, m1, h2, m2, e1, e2, rfl⟩

/-- **C56**, train sets and timetable: they are made of every readable table. -/
theorem C56_input (G : GoodData td st) (R : ReadableData td st table t1) (r : Int)
    (delays : List (Int × ℚ)) : ∃ ts tt, makeInput td st table t1 r delays = .ok (ts, tt) := by
  have hk := G.trains.keys
  have hks : (Dict.keys st).Nodup := G.stations.1.1
  have hch : ∀ s ∈ chosen st none, s ∈ Dict.keys st := fun s h => h
  have hkey : ∀ {t rows}, TableOf td t rows → t ∈ Dict.keys td := fun ht => by
    obtain ⟨info, hm⟩ := ht.mem
    exact List.mem_map.2 ⟨_, hm, rfl⟩
  have hne : ∀ e ∈ td, e.2.2 ≠ [] := by
    intro e he h0
    obtain ⟨s, row, rows, ht, hr, -⟩ := R.leaves e.1 (List.mem_map.2 ⟨e, he, rfl⟩)
    rw [ht.unique (TableOf.of_mem hk he), h0] at hr
    cases hr
  have hfirst : ∀ {t rows}, TableOf td t rows → ∃ s row, FirstStation rows s row := by
    intro t rows ht
    obtain ⟨s, row, rows', ht', hr, hs, -⟩ := R.leaves t (hkey ht)
    cases ht'.unique ht
    obtain ⟨pre, x, post, e, hx, hn⟩ := firstWith_split (fun q : Row => q.station ≠ none)
      ⟨row, hr, by rw [hs]; simp⟩
    obtain ⟨s0, hs0⟩ := Option.ne_none_iff_exists'.1 hx
    exact ⟨s0, x, pre, post, e, hs0, fun q hq => not_not.1 (hn q hq)⟩
  obtain ⟨skip, hskip⟩ := (C41_succeeds td).2 hne
  obtain ⟨d, hd⟩ := C29_found td st hk hks none hch
  obtain ⟨o, ho, -⟩ := C30_computed td st hk hks G.tagged G.trains.once none hch hks
  obtain ⟨jr, hjr⟩ := C31_found td st G.stations.1 hne (by
    intro n h1 h2
    obtain ⟨b, hb⟩ := R.meet n h1 h2
    by_cases hc : ∃ b, Meets td (10 * n + 9) n b
    · obtain ⟨b, hb⟩ := hc
      obtain ⟨s, hs⟩ := R.place n h1 h2 b (.inr hb)
      exact ⟨b, s, hs, .inl hb⟩
    · obtain ⟨s, hs⟩ := R.place n h1 h2 b hb
      rcases hb with hb | hb
      · exact ⟨b, s, hs, .inr ⟨hb, fun b' h' => hc ⟨b', h'⟩⟩⟩
      · exact absurd ⟨b, hb⟩ hc)
  obtain ⟨jt, hjt⟩ := C28_found td st hk hks G.tagged none hch
  obtain ⟨js, hjs⟩ := C32_found td st table G.stations G.tagged G.trains (by
    intro a b hab row hr hj
    rcases R.switches a b hab row hr hj with ⟨n, h⟩ | ⟨l, h⟩ | ⟨a, b, h⟩ <;> rw [h] <;> exact ⟨_, rfl⟩) none hch
  obtain ⟨ps, hps, -⟩ := C35_pass td G.trains G.tableNames r
  obtain ⟨hw, hhw, -⟩ := C33_table td st G.trains G.tableNames hks G.tagged r
  obtain ⟨pr, hpr⟩ := (C36_prep_found td st G.trains G.stations G.tagged r).2
    (fun t rows ht => hfirst ht)
  obtain ⟨sp, pp, hsp, -⟩ := C36_computed td st G.trains G.stations G.tagged r
  obtain ⟨ic, hic⟩ := (C38_initial_found td hk t1).2 (by
    intro t rows ht
    obtain ⟨s, row, hf⟩ := hfirst ht
    obtain ⟨pre, post, e, hs, -⟩ := id hf
    have hr : row ∈ rows := by rw [e]; simp
    rcases hdep : row.dep with _ | x
    · rcases hap : row.approxEnter with _ | x
      · exact ⟨s, row, 0, hf, .inr (.inr ⟨hdep, hap, rfl⟩)⟩
      · obtain ⟨v, hv⟩ := R.minutes ht hr hs (.inr hap)
        exact ⟨s, row, v, hf, .inr (.inl ⟨hdep, x, hap, hv⟩)⟩
    · obtain ⟨v, hv⟩ := R.minutes ht hr hs (.inl hdep)
      exact ⟨s, row, v, hf, .inl ⟨x, hdep, hv⟩⟩)
  obtain ⟨sc, hsc⟩ := (C38_schedule_found td hk t1).2 (by
    rintro t rows s dep ht ⟨pre, row, post, e, hs, hdep, -⟩
    exact R.minutes ht (by rw [e]; simp) hs (.inl hdep))
  obtain ⟨pw, hpw⟩ := (C40_found td G.trains.once skip 1 (3/2) (7/4) 0).2 (by
    intro e he
    obtain ⟨ty, rest, e1, hty⟩ := R.types e he
    have ht := TableOf.of_mem hk he
    obtain ⟨s, row, rows, ht', hr, hs, hlast⟩ := R.leaves e.1 (hkey ht)
    cases ht'.unique ht
    have hw : ∃ w, TypeWeight 1 (3/2) (7/4) ty w := by
      unfold TypeWeight
      simp only [List.mem_cons, List.not_mem_nil, or_false] at hty ⊢
      rcases hty with h | h | h | h | h | h | h
      · exact ⟨1, .inl ⟨.inl h, rfl⟩⟩
      · exact ⟨1, .inl ⟨.inr (.inl h), rfl⟩⟩
      · exact ⟨1, .inl ⟨.inr (.inr h), rfl⟩⟩
      · exact ⟨_, .inr (.inl ⟨.inl h, rfl⟩)⟩
      · exact ⟨_, .inr (.inl ⟨.inr h, rfl⟩)⟩
      · exact ⟨_, .inr (.inr ⟨.inl h, rfl⟩)⟩
      · exact ⟨_, .inr (.inr ⟨.inr h, rfl⟩)⟩
    obtain ⟨w, hw⟩ := hw
    obtain ⟨pre, x, post, ex, ⟨hx1, hx2⟩, hn⟩ := lastWith_split
      (fun q : Row => q.station ≠ none ∧ Dict.get? skip e.1 ≠ q.station) (xs := e.2.2)
      ⟨row, hr, by rw [hs]; simp, by
        intro hg
        rw [hs] at hg
        obtain ⟨rows2, q, ht2, hq, hqs⟩ := (skip_get? hskip hk e.1 s).1 hg
        cases ht2.unique ht
        have := once_unique (G.trains.table ht).1 hr (List.mem_of_getLast? hq) hs hqs
        rw [this] at hlast
        exact hlast hq⟩
    obtain ⟨s0, hs0⟩ := Option.ne_none_iff_exists'.1 hx1
    refine ⟨ty, w, s0, ⟨rest, e1⟩, hw, pre, x, post, ex, hs0, by rw [← hs0]; exact hx2, ?_⟩
    intro q hq
    have := hn q hq
    rcases hqs : q.station with _ | z
    · exact .inl rfl
    · rw [hqs] at this
      have h2 : Dict.get? skip e.1 = some z := by
        by_contra h3
        exact this ⟨by simp, h3⟩
      exact .inr ⟨by rw [h2]; rfl, h2.symm⟩)
  refine ⟨_, _, by
    simp only [makeInput, makeTrainSet, makeTaus, makeTimetable, hskip, hd, ho, hjr, hjt, hjs, hps,
      hhw, hpr, hsp, hic, hpw, hsc, bind, Except.bind]
    rfl⟩

/-- **C56.** From readable tables the scripts make an input and of it a problem, whatever the delays:
no exception is raised. -/
theorem C56_problem (G : GoodData td st) (R : ReadableData td st table t1) (hta : TurnaroundOK td)
    (hn : NamesClear td st) (hl : LinesClear td) (hd : dmax ≠ 0) (r : Int) (cat : Cat)
    (delays : List (Int × ℚ)) : ∃ ts tt b, makeInput td st table t1 r delays = .ok (ts, tt) ∧
      buildProblem ts tt dmax cat = .ok b := by
  obtain ⟨ts, tt, h⟩ := C56_input G R r delays
  obtain ⟨b, hb⟩ := C55_built G h R.meet hta hn hl hd cat
  exact ⟨ts, tt, b, h, hb⟩

/-! ## The hypotheses of `C56_problem` -/

theorem clock_of_check {x : String} (h : (match parseClock x with | .ok _ => true | .error _ => false) = true) :
    ∃ a b, IsClock x a b := by
  by_contra hn
  rw [parseClock_error hn] at h
  cases h

theorem Shuttle.readable : ReadableData Shuttle.trains Shuttle.stations Shuttle.table "12:00" where
  start := clock_of_check (by decide +kernel)
  times := by
    have h : ∀ e ∈ Shuttle.trains, ∀ row ∈ e.2.2, ∀ x ∈ row.dep.toList ++ row.approxEnter.toList,
      (match parseClock x with | .ok _ => true | .error _ => false) = true := by decide +kernel
    intro t rows ht row hr _ x hx
    obtain ⟨info, hm⟩ := ht.mem
    exact clock_of_check (h _ hm row hr x (by rcases hx with hx | hx <;> simp [hx]))
  types := by
    have h : ∀ e ∈ Shuttle.trains, e.2.1 = ["KS - Os"] := by decide +kernel
    intro e he
    exact ⟨"KS - Os", [], h e he, by decide⟩
  leaves := by
    have h : ∀ e ∈ Shuttle.trains, ∃ row ∈ e.2.2, row.station.isSome ∧ e.2.2.getLast? ≠ some row := by
      decide +kernel
    intro t ht
    obtain ⟨e, he, rfl⟩ := List.mem_map.1 ht
    obtain ⟨row, hr, hs, hl⟩ := h e he
    obtain ⟨s, hs⟩ := Option.isSome_iff_exists.1 hs
    exact ⟨s, row, _, TableOf.of_mem Shuttle.good.trains.keys he, hr, hs, hl⟩
  switches := by
    have h : ∀ row ∈ Shuttle.table, (match row.switches with
      | .textInt _ => true | .textTuple _ => true | _ => false) = true := by decide +kernel
    intro a b _ row hr _
    have := h row hr
    split at this
    · exact .inl ⟨_, by assumption⟩
    · exact .inr (.inl ⟨_, by assumption⟩)
    · cases this
  meet := Shuttle.meet
  place := by
    have h : ∀ e ∈ Shuttle.trains, ∀ row ∈ e.2.2.getLast?, ∃ q ∈ Shuttle.stations, row.path ∈ q.2 := by
      decide +kernel
    have hl : ∀ t b, LastBlock Shuttle.trains t b → ∃ s, BelongsTo Shuttle.stations b s := by
      rintro t b ⟨rows, row, ht, hl, rfl⟩
      obtain ⟨info, hm⟩ := ht.mem
      obtain ⟨q, hq, hb⟩ := h _ hm row hl
      exact ⟨q.1, q.2, hq, hb⟩
    intro n _ _ b hb
    rcases hb with hb | hb
    · exact hl _ b hb.1
    · exact hl _ b hb.1

/-- the hypotheses of `C56_problem` -/
example : GoodData Shuttle.trains Shuttle.stations ∧
    ReadableData Shuttle.trains Shuttle.stations Shuttle.table "12:00" ∧
    TurnaroundOK Shuttle.trains ∧ NamesClear Shuttle.trains Shuttle.stations ∧
    LinesClear Shuttle.trains :=
  ⟨Shuttle.good, Shuttle.readable, Shuttle.turnaround, Shuttle.names, Shuttle.lines⟩

end Verif
