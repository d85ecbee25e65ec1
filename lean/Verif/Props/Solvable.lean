import Verif.Proofs.GenNames
import Verif.Examples.Shuttle

/-!
# C55: a problem can be built from every input generated from the tables

`makeInput` is what the scripts compute from the tables. Building the problem (`create_linear_problem`)
then neither misses a key nor gives PuLP a name of a constraint twice.
-/

namespace Verif

variable {td : Trains} {st : Stations} {table : List PathRow} {t1 : String} {r : Int}
  {delays : List (Int × ℚ)} {ts : TrainSets} {tt : Timetable} {dmax : ℚ} {cat : Cat} {b : Built}

theorem Labels.two {c c' : List Named} {Q Q' : CIx → Prop} (h : Labels (.ok c) Q)
    (h' : Labels (.ok c') Q') (hd : ∀ i, Q i → Q' i → False) :
    Labels (.ok (c ++ c')) (fun i => Q i ∨ Q' i) := labels_append h h' hd

/-- **C55.** For tables as in `GoodData`, trains `n` and `10 n + 9` that meet with a turnaround time,
names without clashes and no line whose blocks are a part of another one, the problem is built. -/
theorem C55_built (G : GoodData td st) (h : makeInput td st table t1 r delays = .ok (ts, tt))
    (hm : AllMeet td) (hta : TurnaroundOK td) (hn : NamesClear td st) (hl : LinesClear td)
    (hd : dmax ≠ 0) (cat : Cat) : ∃ b, buildProblem ts tt dmax cat = .ok b := by
  have g := gen_of_input G h
  obtain ⟨dv, hdv⟩ := g.delayVariables dmax cat
  obtain ⟨y, hy⟩ := g.orderVariables
  obtain ⟨c1, h1⟩ := g.minimalSpan hm hdv hy
  obtain ⟨c2, h2⟩ := g.minimalStay hm hdv
  obtain ⟨c3, h3⟩ := g.singleLine hm hdv hy
  obtain ⟨c4, h4⟩ := g.trackOccupation hm hdv hy
  obtain ⟨c5, h5⟩ := g.rollingStock hm hta hdv
  obtain ⟨c6, h6⟩ := g.switchOccupation hm hdv hy
  obtain ⟨o, ho⟩ := g.objective hm hd hdv
  have l1 := h1 ▸ g.labels_minimalSpan (dv := dv) (y := y) (dmax := dmax) hn hl
  have l2 := h2 ▸ g.labels_minimalStay (dv := dv) hn
  have l3 := h3 ▸ g.labels_singleLine (dv := dv) (y := y) (dmax := dmax) hn
  have l4 := h4 ▸ g.labels_trackOccupation (dv := dv) (y := y) (dmax := dmax) hm hn
  have l5 := h5 ▸ g.labels_rollingStock (dv := dv) (dmax := dmax) hm hn
  have l6 := h6 ▸ g.labels_switchOccupation (dv := dv) (y := y) (dmax := dmax) hn
  have l := ((((l1.two l2 (by rintro i ⟨e, -⟩ ⟨e', -⟩; rw [e] at e'; revert e'; decide)).two l3
    (by rintro i (⟨e, -⟩ | ⟨e, -⟩) ⟨e', -⟩ <;> rw [e] at e' <;> revert e' <;> decide)).two l4
    (by rintro i ((⟨e, -⟩ | ⟨e, -⟩) | ⟨e, -⟩) ⟨e', -⟩ <;> rw [e] at e' <;> revert e' <;> decide)).two l5
    (by rintro i (((⟨e, -⟩ | ⟨e, -⟩) | ⟨e, -⟩) | ⟨e, -⟩) ⟨e', -⟩ <;> rw [e] at e' <;> revert e' <;>
      decide)).two l6
    (by rintro i ((((⟨e, -⟩ | ⟨e, -⟩) | ⟨e, -⟩) | ⟨e, -⟩) | ⟨e, -⟩) ⟨e', -⟩ <;> rw [e] at e' <;>
      revert e' <;> decide)
  obtain ⟨p, hp⟩ := labels_addAll (l.mono (by
    rintro i (((((⟨-, e⟩ | ⟨-, e⟩) | ⟨-, e⟩) | ⟨-, e⟩) | ⟨-, e⟩) | ⟨-, e⟩) <;> exact e))
  exact ⟨⟨dv, y, { p with objective := o }⟩, by
    simp only [buildProblem, hdv, hy, h1, h2, h3, h4, h5, h6, ho, hp, bind, Except.bind]⟩

/-! ## The hypotheses of `C55_built` -/

theorem linesClear_of_check (ho : ∀ e ∈ td, OnceEach e.2.2) (ss : List String)
    (hs : ∀ e ∈ td, ∀ s ∈ trainImportantStations e.2.2, s ∈ ss)
    (h : ∀ s ∈ ss, ∀ s' ∈ ss, ∀ t ∈ Dict.keys td, ∀ t' ∈ Dict.keys td, nextOf td s t = some s' →
      nextOf td s t' = some s' → (∀ b ∈ betweenOf td s s' t, b ∈ betweenOf td s s' t') →
      betweenOf td s s' t = betweenOf td s s' t') : LinesClear td := by
  intro s s' t t' b b' hb hb' hsub
  obtain ⟨rows, mid, ht, hc, -⟩ := id hb
  obtain ⟨info, hmem⟩ := ht.mem
  have hsv := consecutive_serves hc
  exact anti_of_check ho (h s (hs _ hmem s (mem_stations.2 hsv.1)) s'
    (hs _ hmem s' (mem_stations.2 hsv.2))) t t' b b' hb hb' hsub

theorem turnaround_of_check (h : ∀ e ∈ td, ∀ e' ∈ td, (e.1 = 10 * e'.1 + 9 ∨ e'.1 = 10 * e.1 + 9) →
    e.2.2.getLast?.map (·.path) = e'.2.2.head?.map (·.path) →
    (e'.2.2.head?.bind (·.turnaround)).isSome) : TurnaroundOK td := by
  rintro x y b hxy ⟨⟨rx, lx, htx, hlx, rfl⟩, ⟨ry, fy, hty, hfy, hb⟩⟩ rows row ht hrow
  obtain ⟨i, hmx⟩ := htx.mem
  obtain ⟨i', hmy⟩ := hty.mem
  have := h _ hmx _ hmy hxy (by simp only [hlx, hfy, Option.map_some, hb])
  rw [hty.unique ht] at this
  simp only [hrow, Option.bind_some] at this
  exact Option.isSome_iff_exists.1 this

theorem Shuttle.turnaround : TurnaroundOK Shuttle.trains := turnaround_of_check (by decide +kernel)

theorem Shuttle.lines : LinesClear Shuttle.trains :=
  linesClear_of_check (by unfold OnceEach; decide +kernel) ["A", "B", "C"] (by decide +kernel)
    (by decide +kernel)

theorem Shuttle.names : NamesClear Shuttle.trains Shuttle.stations :=
  ⟨by decide +kernel, by unfold Legal; decide +kernel⟩

/-- the hypotheses of `C55_built`; the problem has a feasible plan -/
example : GoodData Shuttle.trains Shuttle.stations ∧ AllMeet Shuttle.trains ∧
    TurnaroundOK Shuttle.trains ∧ NamesClear Shuttle.trains Shuttle.stations ∧
    LinesClear Shuttle.trains ∧ ∃ ts tt b,
    makeInput Shuttle.trains Shuttle.stations Shuttle.table "12:00" 0 [(1, 3)] = .ok (ts, tt) ∧
    buildProblem ts tt 20 .integer = .ok b ∧ Feasible b Shuttle.plan :=
  ⟨Shuttle.good, Shuttle.meet, Shuttle.turnaround, Shuttle.names, Shuttle.lines, Shuttle.made⟩

/-! ## Each of the hypotheses is needed -/

/-- executable check that building the problem raises an exception -/
def failsWith (td : Trains) (st : Stations) (table : List PathRow) (dmax : ℚ) (e : PyErr) : Bool :=
  match makeInput td st table "12:00" 1 [] with
  | .ok (ts, tt) =>
    match buildProblem ts tt dmax .integer with
    | .ok _ => false
    | .error e' => decide (e' = e)
  | .error _ => false

theorem fails_of_check {e : PyErr} (h : failsWith td st table dmax e = true) :
    ∃ ts tt, makeInput td st table "12:00" 1 [] = .ok (ts, tt) ∧
      buildProblem ts tt dmax .integer = .error e := by
  unfold failsWith at h
  split at h
  · rename_i ts tt hi
    split at h
    · cases h
    · rename_i e' he
      rw [of_decide_eq_true h] at he
      exact ⟨ts, tt, hi, he⟩
  · cases h

namespace Clash

/-- a train from `a` over the blocks `m` to `b` -/
def train (x : String) (m : List String) (d d' : String) : List String × List Row :=
  (["KS - Os"], [{ path := "a", station := some x, passingTime := some 1, dep := some d }] ++
    m.map (fun q => { path := q, passingTime := some 2 }) ++
    [{ path := "b", station := some "B", passingTime := some 1, dep := some d' },
     { path := "n", passingTime := some 2 },
     { path := "c", station := some "C", passingTime := some 0 }])

/-- station `x` -/
def stations (x : String) : Stations := [(x, ["a"]), ("B", ["b"]), ("C", ["c"])]

/-- trains 3 and 4 run over the last block of train 1 and of train 2 only -/
def nested : Trains :=
  [(1, train "A" ["l1", "l2"] "12:00" "12:06"), (2, train "A" ["m1", "l2"] "12:05" "12:11"),
   (3, train "A" ["l2"] "12:10" "12:16"), (4, train "A" ["l2"] "12:15" "12:21")]

/-- two trains from station `p` -/
def called : Trains := [(1, train "p" ["l1"] "12:00" "12:06"), (3, train "p" ["l1"] "12:05" "12:11")]

/-- train 19 without its turnaround time -/
def noTurnaround : Trains := Shuttle.trains.map fun e =>
  (e.1, (e.2.1, e.2.2.map fun q => { q with turnaround := none }))

theorem goodNested : GoodData nested (stations "A") where
  trains := ⟨by decide +kernel, by unfold OnceEach; decide +kernel, by unfold BlocksOnce; decide +kernel⟩
  stations := wfStations_of_check (by decide +kernel) (by decide +kernel)
  tagged := tagged_of_check (wfStations_of_check (by decide +kernel) (by decide +kernel)).1
    (by decide +kernel)
  names := by
    have h : ∀ e ∈ stations "A", e.1 = "A" ∨ e.1 = "B" ∨ e.1 = "C" := by decide +kernel
    intro e he
    rcases h e he with h | h | h <;> rw [h] <;> decide

theorem goodCalled : GoodData called (stations "p") where
  trains := ⟨by decide +kernel, by unfold OnceEach; decide +kernel, by unfold BlocksOnce; decide +kernel⟩
  stations := wfStations_of_check (by decide +kernel) (by decide +kernel)
  tagged := tagged_of_check (wfStations_of_check (by decide +kernel) (by decide +kernel)).1
    (by decide +kernel)
  names := by
    have h : ∀ e ∈ stations "p", e.1 = "p" ∨ e.1 = "B" ∨ e.1 = "C" := by decide +kernel
    intro e he
    rcases h e he with h | h | h <;> rw [h] <;> decide

theorem goodNoTurnaround : GoodData noTurnaround Shuttle.stations where
  trains := ⟨by decide +kernel, by unfold OnceEach; decide +kernel, by unfold BlocksOnce; decide +kernel⟩
  stations := Shuttle.stations_wf
  tagged := tagged_of_check Shuttle.stations_wf.1 (by decide +kernel)
  names := Shuttle.good.names

end Clash

/-- **C55**, blocks of a line that are a part of another one: trains 3 and 4 are in two groups, and
PuLP is given a name twice. -/
theorem C55_nested : GoodData Clash.nested (Clash.stations "A") ∧ AllMeet Clash.nested ∧
    TurnaroundOK Clash.nested ∧ NamesClear Clash.nested (Clash.stations "A") ∧ ∃ ts tt,
    makeInput Clash.nested (Clash.stations "A") [] "12:00" 1 [] = .ok (ts, tt) ∧
    buildProblem ts tt 20 .integer = .error .pulpError := by
  refine ⟨Clash.goodNested, ?_, turnaround_of_check (by decide +kernel),
    ⟨by decide +kernel, by unfold Legal; decide +kernel⟩, fails_of_check (by decide +kernel)⟩
  have hk : ∀ n ∈ Dict.keys Clash.nested, 10 * n + 9 ∉ Dict.keys Clash.nested := by decide +kernel
  exact fun n h h' => absurd h' (hk n h)

/-- **C55**, a station called `p`: PuLP is given a name twice. -/
theorem C55_called : GoodData Clash.called (Clash.stations "p") ∧ AllMeet Clash.called ∧
    TurnaroundOK Clash.called ∧ LinesClear Clash.called ∧ ∃ ts tt,
    makeInput Clash.called (Clash.stations "p") [] "12:00" 1 [] = .ok (ts, tt) ∧
    buildProblem ts tt 20 .integer = .error .pulpError := by
  refine ⟨Clash.goodCalled, ?_, turnaround_of_check (by decide +kernel),
    linesClear_of_check (by unfold OnceEach; decide +kernel) ["p", "B", "C"] (by decide +kernel)
      (by decide +kernel), fails_of_check (by decide +kernel)⟩
  have hk : ∀ n ∈ Dict.keys Clash.called, 10 * n + 9 ∉ Dict.keys Clash.called := by decide +kernel
  exact fun n h h' => absurd h' (hk n h)

/-- **C55**, no turnaround time in the table: the preparation time is missing. -/
theorem C55_turnaround : GoodData Clash.noTurnaround Shuttle.stations ∧
    AllMeet Clash.noTurnaround ∧ NamesClear Clash.noTurnaround Shuttle.stations ∧
    LinesClear Clash.noTurnaround ∧ ∃ ts tt,
    makeInput Clash.noTurnaround Shuttle.stations Shuttle.table "12:00" 1 [] = .ok (ts, tt) ∧
    buildProblem ts tt 20 .integer = .error .keyError := by
  refine ⟨Clash.goodNoTurnaround, ?_, ⟨by decide +kernel, Shuttle.names.stations⟩,
    linesClear_of_check (by unfold OnceEach; decide +kernel) ["A", "B", "C"] (by decide +kernel)
      (by decide +kernel), fails_of_check (by decide +kernel)⟩
  have hk : ∀ n ∈ Dict.keys Clash.noTurnaround, 10 * n + 9 ∈ Dict.keys Clash.noTurnaround → n = 1 := by
    decide +kernel
  intro n h1 h2
  rw [hk n h1 h2]
  exact ⟨"c", .inl ⟨⟨_, _, ⟨_, rfl⟩, rfl, rfl⟩, ⟨_, _, ⟨_, rfl⟩, rfl, rfl⟩⟩⟩

/-- **C55**, `d_max = 0`: the weights are divided by it. -/
theorem C55_dmax : ∃ ts tt,
    makeInput Shuttle.trains Shuttle.stations Shuttle.table "12:00" 1 [] = .ok (ts, tt) ∧
    buildProblem ts tt 0 .integer = .error .zeroDivision := fails_of_check (by decide +kernel)

end Verif
