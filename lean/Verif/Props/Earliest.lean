import Verif.Props.Safe

/-!
# C70: earliest departures, from the tables

The earliest departure of a train from a station, told from its timetable: at its first station the
departure time there plus the delays; further on the time of the run and the stop after the station
before; never before the departure time in the table.
-/

namespace Verif

variable {td : Trains} {st : Stations} {table : List PathRow} {t1 : String} {r : Int}
  {delays : List (Int × ℚ)} {ts : TrainSets} {tt : Timetable} {dmax : ℚ} {cat : Cat} {b : Built}
  {σ : LpVar → ℚ}

/-- the delay that the scripts add for a train: of all delays given for numbers with whose digits the
number of the train ends -/
def addedDelay (delays : List (Int × ℚ)) (t : Int) : ℚ :=
  ((delays.filter fun d => decide ((Val.int d.1).render.toList <:+ (Val.int t).render.toList)).map
    Prod.snd).sum

/-- no other train is delayed along with the trains that delays are given for -/
def DelaysClear (td : Trains) (delays : List (Int × ℚ)) : Prop :=
  ∀ d ∈ delays, ∀ t ∈ Dict.keys td, (Val.int d.1).render.toList <:+ (Val.int t).render.toList → d.1 = t

theorem addedDelay_eq (hc : DelaysClear td delays) {t : Int} (ht : t ∈ Dict.keys td) :
    addedDelay delays t = delayOf delays t := by
  unfold addedDelay delayOf
  congr 2
  refine List.filter_congr ?_
  intro d hd
  simp only [decide_eq_decide]
  exact ⟨hc d hd t ht, fun e => by rw [e]⟩

/-- not before the departure time in the table, if there is one -/
def Later (rows : List Row) (t1 x : String) (u e : ℚ) : Prop :=
  (∃ dep v, FirstDep rows x dep ∧ MinutesFrom t1 dep v ∧ e = max v u) ∨
  ((∀ dep, ¬ FirstDep rows x dep) ∧ e = u)

/-- the earliest departure from station `x` according to the table of a train which is late by `a`
at its first station -/
inductive Earliest (rows : List Row) (t1 : String) (r : Int) (a : ℚ) : String → ℚ → Prop
  | first {x : String} {row : Row} {v e : ℚ} : FirstStation rows x row → InitialTime t1 row v →
      Later rows t1 x (v + a) e → Earliest rows t1 r a x e
  | next {p x : String} {m : List Row} {q : Row} {e0 e : ℚ} : Consecutive rows p x m → q ∈ rows →
      q.station = some x → Earliest rows t1 r a p e0 →
      Later rows t1 x (e0 + roundIf r (timesOf m).sum + roundIf r (q.passingTime.getD 0)) e →
      Earliest rows t1 r a x e

theorem addDelays_exact {ic : Dict String ℚ} (hk : (Dict.keys ic).Nodup) {t : Int} {s : String}
    (hs : Plain (.str s)) {v : ℚ} (hv : Dict.get? ic (key2 (.int t) (.str s)) = some v) :
    Dict.get? (delays.foldl (fun ic d => addDelay ic d.1 d.2) ic) (key2 (.int t) (.str s)) =
      some (v + addedDelay delays t) := by
  induction delays generalizing ic v with
  | nil => simpa [addedDelay] using hv
  | cons d ds ih =>
    have hk' : (Dict.keys (addDelay ic d.1 d.2)).Nodup := by rw [C39_keys]; exact hk
    have hno : strContains s ((Val.int d.1).render ++ "_") ≠ true := by
      intro h
      simp only [strContains, decide_eq_true_eq, String.toList_append] at h
      obtain ⟨x, y, h⟩ := h
      refine hs ?_
      change '_' ∈ s.toList
      rw [← h]
      simp
    simp only [List.foldl_cons]
    rcases C39_computed ic d.1 d.2 hk t s v hv with ⟨h1, h2⟩ | ⟨h1, h2⟩
    · have h3 := h2.resolve_right hno
      rw [ih hk' h1]
      simp only [addedDelay, List.filter_cons, h3, decide_true, if_true, List.map_cons,
        List.sum_cons]
      congr 1
      ring
    · have h3 : ¬ (Val.int d.1).render.toList <:+ (Val.int t).render.toList := fun h => h2 (.inl h)
      rw [ih hk' h1]
      simp only [addedDelay, List.filter_cons, h3, decide_false, Bool.false_eq_true, if_false]

/-- the initial conditions after all delays -/
theorem Gen.initial (G : GoodData td st) (h : makeInput td st table t1 r delays = .ok (ts, tt))
    {t : Int} {rows : List Row} (ht : TableOf td t rows) {x : String} {u : ℚ} :
    Dict.get? tt.initialConditions (key2 (.int t) (.str x)) = some u ↔
      ∃ row v, FirstStation rows x row ∧ InitialTime t1 row v ∧ u = v + addedDelay delays t := by
  have g := gen_of_input G h
  unfold makeInput at h
  obtain ⟨skip, hskip, h⟩ := bind_ok h
  obtain ⟨ts', hts, h⟩ := bind_ok h
  obtain ⟨taus, htaus, h⟩ := bind_ok h
  obtain ⟨tt', htt, h⟩ := bind_ok h
  cases h
  unfold makeTimetable at htt
  obtain ⟨ic, hic, htt⟩ := bind_ok htt
  obtain ⟨pw, hpw, htt⟩ := bind_ok htt
  obtain ⟨sc, hsc, htt⟩ := bind_ok htt
  cases htt
  have hin := (C38_initial td G.trains.keys t1 ic hic).1 (key2 (.int t) (.str x))
  have hplain : ∀ {row}, FirstStation rows x row → Plain (.str x) := by
    rintro row ⟨pre, post, e, hs, -⟩
    exact (G.serves ht ⟨row, by rw [e]; simp, hs⟩).2
  have go : ∀ {row v}, FirstStation rows x row → InitialTime t1 row v →
      Dict.get? (delays.foldl (fun ic d => addDelay ic d.1 d.2) ic) (key2 (.int t) (.str x)) =
        some (v + addedDelay delays t) := by
    intro row v h1 h2
    exact addDelays_exact (initial_nodup hic) (hplain h1) ((hin v).2 ⟨t, rows, x, row, ht, h1, rfl, h2⟩)
  constructor
  · intro hu
    obtain ⟨rows', row, ht', hfs⟩ := (g.init t x).1 ⟨u, hu⟩
    cases ht'.unique ht
    have hmem : Dict.has ic (key2 (.int t) (.str x)) = true := by
      have h1 : key2 (.int t) (.str x) ∈ Dict.keys (delays.foldl (fun ic d => addDelay ic d.1 d.2) ic) :=
        List.mem_map.2 ⟨_, Dict.mem_of_get? hu, rfl⟩
      rw [keys_addDelays] at h1
      exact (Dict.get?_isSome ic _).2 h1
    obtain ⟨v, hv⟩ : ∃ v, Dict.get? ic (key2 (.int t) (.str x)) = some v := by
      cases hg : Dict.get? ic (key2 (.int t) (.str x)) with
      | none => simp [Dict.has, hg] at hmem
      | some v => exact ⟨v, rfl⟩
    obtain ⟨t', rows', x', row', ht', hfs', hkey, hv'⟩ := (hin v).1 hv
    obtain ⟨e1, e2⟩ := C52_intTrains_partial.1 t t' x x' hkey
    subst e1; subst e2
    cases ht'.unique ht
    refine ⟨row', v, hfs', hv', ?_⟩
    have := go hfs' hv'
    simp only at hu
    rw [this] at hu
    cases hu
    rfl
  · rintro ⟨row, v, h1, h2, rfl⟩
    exact go h1 h2

/-- departure times of the table -/
theorem Gen.later (G : GoodData td st) (h : makeInput td st table t1 r delays = .ok (ts, tt))
    {t : Int} {rows : List Row} (ht : TableOf td t rows) {x : String} {u e : ℚ} :
    e = maxSched (schedOf tt (.int t) (.str x)) u ↔ Later rows t1 x u e := by
  unfold makeInput at h
  obtain ⟨skip, hskip, h⟩ := bind_ok h
  obtain ⟨ts', hts, h⟩ := bind_ok h
  obtain ⟨taus, htaus, h⟩ := bind_ok h
  obtain ⟨tt', htt, h⟩ := bind_ok h
  cases h
  unfold makeTimetable at htt
  obtain ⟨ic, hic, htt⟩ := bind_ok htt
  obtain ⟨pw, hpw, htt⟩ := bind_ok htt
  obtain ⟨sc, hsc, htt⟩ := bind_ok htt
  cases htt
  have hall := C38_schedule td G.trains.keys t1 sc hsc (key2 (.int t) (.str x))
  have hfound := (C38_schedule_found td G.trains.keys t1).1 ⟨sc, hsc⟩ t rows x
  unfold schedOf maxSched Later
  simp only
  cases hg : Dict.get? sc (key2 (.int t) (.str x)) with
  | none =>
    have hno : ∀ dep, ¬ FirstDep rows x dep := by
      intro dep hd
      obtain ⟨v, hv⟩ := hfound dep ht hd
      have := (hall v).2 ⟨t, rows, x, dep, ht, hd, rfl, hv⟩
      rw [hg] at this
      cases this
    simp only
    constructor
    · exact fun he => .inr ⟨hno, he⟩
    · rintro (⟨dep, v, hd, -, -⟩ | ⟨-, he⟩)
      · exact absurd hd (hno dep)
      · exact he
  | some w =>
    obtain ⟨t', rows', x', dep, ht', hd, hk, hv⟩ := (hall w).1 hg
    obtain ⟨e1, e2⟩ := C52_intTrains_partial.1 t t' x x' hk
    subst e1; subst e2
    cases ht'.unique ht
    simp only
    constructor
    · exact fun he => .inl ⟨dep, w, hd, hv, he⟩
    · rintro (⟨dep', v, hd', hv', he⟩ | ⟨hno, -⟩)
      · cases hd.unique hd'
        cases hv.unique hv'
        exact he
      · exact absurd hd (hno dep)

/-- **C70.** The earliest departure that the code computes, from any station that the train leaves, is
the one told by the timetable and the delays. -/
theorem C70_earliest (G : GoodData td st) (h : makeInput td st table t1 r delays = .ok (ts, tt))
    {t : Int} {rows : List Row} (ht : TableOf td t rows) {x : String} (hx : Leaves td t x) {e : ℚ} :
    earliestDepTime ts.paths tt (.int t) (.str x) = .ok e ↔
      Earliest rows t1 r (addedDelay delays t) x e := by
  have g := gen_of_input G h
  have ho := (G.trains.table ht).1
  have hu : ∀ {x e}, earliestDepTime ts.paths tt (.int t) (.str x) = .ok e ↔ _ := fun {x e} =>
    edt_unfold (g.path_some ht) (none_notMem_map _) (s := .str x) (e := e)
  constructor
  · intro he
    -- along the stations of the train, backwards
    have key : ∀ n, ∀ x e, Leaves td t x → edtFuel ts.paths tt (.int t) n (.str x) = .ok e →
        Earliest rows t1 r (addedDelay delays t) x e := by
      intro n
      induction n with
      | zero => intro x e _ he; cases he
      | succ n ih =>
        intro x e hx he
        rcases edtFuel_succ.1 he with ⟨u, hu, he⟩ | ⟨h0, path, p, w, s, ep, h1, h2, h3, h4, h5, h6⟩
        · obtain ⟨row, v, hf, hv, rfl⟩ := (Gen.initial G h ht).1 hu
          exact .first hf hv ((Gen.later G h ht).1 he)
        · obtain ⟨t', x', rows', e1, e2, ht', hp⟩ := g.prev.1 ⟨path, h1, h2⟩
          cases e1; cases e2
          cases ht'.unique ht
          rcases hp with ⟨x0, mid, rfl, hc⟩ | ⟨rfl, row, hf⟩
          · obtain ⟨row, rows', ht', hr, hs, hl⟩ := hx
            cases ht'.unique ht
            have hw := g.pass t rows x0 x mid ht hc
            have hs' := g.stop t x row ⟨rows, ht, hr, hs, hl⟩
            unfold Pass at hw h3
            unfold Stop at hs' h4
            rw [h3] at hw
            rw [h4] at hs'
            cases hw
            cases hs'
            exact .next hc hr hs (ih x0 ep (leaves_of_next G ht hc) h5) ((Gen.later G h ht).1 h6)
          · obtain ⟨u, hu⟩ := (g.init t x).2 ⟨rows, row, ht, hf⟩
            rw [h0] at hu
            cases hu
    exact key _ x e hx he
  · intro he
    induction he with
    | first hf hv hl =>
      exact hu.2 (.inl ⟨_, (Gen.initial G h ht).2 ⟨_, _, hf, hv, rfl⟩, (Gen.later G h ht).2 hl⟩)
    | @next p x m q e0 e hc hq hs _ hl ih =>
      refine hu.2 (.inr ⟨?_, .str p, _, _, e0, g.prev.2 ⟨t, x, rows, rfl, rfl, ht, .inl ⟨p, m, rfl, hc⟩⟩,
        g.pass t rows p x m ht hc, ?_, ih (leaves_of_next G ht hc), (Gen.later G h ht).2 hl⟩)
      · cases hg : Dict.get? tt.initialConditions (key2 (.int t) (.str x)) with
        | none => rfl
        | some u =>
          obtain ⟨rows', row, ht', hf⟩ := (g.init t x).1 ⟨u, hg⟩
          have := prevOf_unique (g.prev.2 ⟨t, x, rows', rfl, rfl, ht', .inr ⟨rfl, row, hf⟩⟩)
            (g.prev.2 ⟨t, x, rows, rfl, rfl, ht, .inl ⟨p, m, rfl, hc⟩⟩)
          cases this
      · obtain ⟨row, rows', ht', hr, hs', hl'⟩ := hx
        cases ht'.unique ht
        rw [once_unique ho hq hr hs hs']
        exact g.stop t x row ⟨rows, ht, hr, hs', hl'⟩

/-- **C70**, found: for every station that a train leaves there is an earliest departure, just one. -/
theorem C70_found (G : GoodData td st) (h : makeInput td st table t1 r delays = .ok (ts, tt))
    {t : Int} {rows : List Row} (ht : TableOf td t rows) {x : String} (hx : Leaves td t x) :
    ∃! e, Earliest rows t1 r (addedDelay delays t) x e := by
  obtain ⟨e, he⟩ := (gen_of_input G h).edt hx
  refine ⟨e, (C70_earliest G h ht hx).1 he, fun e' he' => ?_⟩
  have := (C70_earliest G h ht hx).2 he'
  rw [he] at this
  cases this
  rfl

/-- **C70**, plans: in every feasible plan a train leaves between its earliest departure and `d_max`
minutes later. -/
theorem C70_departs (G : GoodData td st) (h : makeInput td st table t1 r delays = .ok (ts, tt))
    (hb : buildProblem ts tt dmax cat = .ok b) (hf : Feasible b σ) {t : Int} {rows : List Row}
    (ht : TableOf td t rows) {x : String} {d : ℚ}
    (hd : Departs ts tt b.dv σ (.int t) (.str x) d) :
    ∃ e, Earliest rows t1 r (addedDelay delays t) x e ∧ e ≤ d ∧ d ≤ e + dmax := by
  have g := gen_of_input G h
  obtain ⟨-, -, e, he, h1, h2⟩ := C07_notEarly hb hf hd
  obtain ⟨e', v, -, hv, -⟩ := hd
  obtain ⟨t', x', e1, e2, hl⟩ := g.leaves_of_delay
    ((delayVariables_find (parts hb).hdv).1 (delayAt_ok.1 hv)).1
  cases e1; cases e2
  exact ⟨e, (C70_earliest G h ht hl).1 he, h1, h2⟩

/-! ## Examples -/

/-- train 1 is late by three minutes: it leaves `A` at 12:03 at the earliest, and `B`, after a run of
five minutes and a stop of one, at 12:09, though the table says 12:08; the delay of 1 is not added for
train 19 -/
example : ∃ rows, TableOf Shuttle.trains 1 rows ∧ Leaves Shuttle.trains 1 "B" ∧
    Earliest rows "12:00" 0 (addedDelay [(1, 3)] 1) "B" 9 ∧ addedDelay [(1, 3)] 19 = 0 := by
  refine ⟨_, ⟨_, rfl⟩, ⟨_, _, ⟨_, rfl⟩, .tail _ (.tail _ (.tail _ (.head _))), rfl, by decide +kernel⟩, ?_,
    by decide +kernel⟩
  refine .next (p := "A") (e0 := 3)
    (m := [{ path := "l1", passingTime := some 2 }, { path := "l2", passingTime := some 3 }])
    ⟨[], _, _, _, rfl, rfl, rfl, by decide⟩ (.tail _ (.tail _ (.tail _ (.head _)))) rfl ?_ ?_
  · refine .first (v := 0) ⟨[], _, rfl, rfl, by simp⟩ (.inl ⟨"12:00", rfl, ?_⟩) (.inl ⟨"12:00", 0, ?_, ?_, ?_⟩)
    · exact calcTimeDiff_iff.1 (by decide +kernel)
    · exact ⟨[], _, _, rfl, rfl, rfl, by simp⟩
    · exact calcTimeDiff_iff.1 (by decide +kernel)
    · decide +kernel
  · refine .inl ⟨"12:08", 8, get?_depRows.1 (by decide +kernel), calcTimeDiff_iff.1 (by decide +kernel), ?_⟩
    decide +kernel

end Verif
