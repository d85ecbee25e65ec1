import Verif.Proofs.Generated
import Verif.Props.Vars

/-!
# Generated input: paths, earliest departures, delay variables, rolling stock
-/

namespace Verif

variable {td : Trains} {st : Stations} {table : List PathRow} {t1 : String} {r : Int}
  {ts : TrainSets} {tt : Timetable}

theorem Gen.path (g : Gen td st table t1 r ts tt) {j : Val} {p : List Val} :
    Dict.get? ts.paths j = some p ↔
      ∃ t rows, j = .int t ∧ TableOf td t rows ∧ p = (trainImportantStations rows).map strKey := by
  have hg : ∀ t, Dict.get? (getPaths td) t = (Dict.get? td t).map fun e =>
      trainImportantStations e.2 :=
    fun t => get?_map_snd td (fun e => trainImportantStations e.2) t
  rw [g.paths]
  constructor
  · intro h
    obtain ⟨t, v, rfl, rfl, hv⟩ := get?_map_some intKey_inj (fun l : List String => l.map strKey) h
    rw [hg] at hv
    obtain ⟨e, he, rfl⟩ := Option.map_eq_some_iff.1 hv
    exact ⟨t, e.2, rfl, ⟨e.1, he⟩, rfl⟩
  · rintro ⟨t, rows, rfl, ⟨info, ht⟩, rfl⟩
    have := get?_map_key intKey_inj (fun l : List String => l.map strKey) (getPaths td) t
    rw [hg, ht] at this
    exact this

theorem Gen.path_some (g : Gen td st table t1 r ts tt) {t : Int} {rows : List Row}
    (ht : TableOf td t rows) :
    Dict.get? ts.paths (.int t) = some ((trainImportantStations rows).map strKey) :=
  g.path.2 ⟨t, rows, rfl, ht, rfl⟩

theorem none_notMem_map (l : List String) : Val.none ∉ l.map strKey := by
  intro h
  obtain ⟨x, -, hx⟩ := List.mem_map.1 h
  cases hx

/-- the station before on the path of a train -/
theorem Gen.prev (g : Gen td st table t1 r ts tt) {j s p : Val} :
    PrevOf ts j s p ↔ ∃ t x rows, j = .int t ∧ s = .str x ∧ TableOf td t rows ∧
      ((∃ x0 mid, p = .str x0 ∧ Consecutive rows x0 x mid) ∨
       (p = .none ∧ ∃ row, FirstStation rows x row)) := by
  constructor
  · rintro ⟨path, hp, hprev⟩
    obtain ⟨t, rows, rfl, ht, rfl⟩ := g.path.1 hp
    have ho := (g.data.trains.table ht).1
    rcases hprev with ⟨L, R, hl, -, -⟩ | ⟨R, hl, rfl⟩
    · obtain ⟨A, B, hAB, -, hB⟩ := List.map_eq_append_iff.1 hl
      obtain ⟨x0, B', rfl, rfl, hB'⟩ := List.map_eq_cons_iff.1 hB
      obtain ⟨x, B'', rfl, rfl, -⟩ := List.map_eq_cons_iff.1 hB'
      obtain ⟨mid, hm⟩ := (next_iff ho).1 ((next_split ho).2 ⟨A, B'', hAB⟩)
      exact ⟨t, x, rows, rfl, rfl, ht, .inl ⟨x0, mid, rfl, hm⟩⟩
    · obtain ⟨x, B, hx, rfl, -⟩ := List.map_eq_cons_iff.1 hl
      exact ⟨t, x, rows, rfl, rfl, ht, .inr ⟨rfl, firstStation_nth.1 (by rw [hx]; rfl)⟩⟩
  · rintro ⟨t, x, rows, rfl, rfl, ht, hc⟩
    have ho := (g.data.trains.table ht).1
    refine ⟨_, g.path_some ht, ?_⟩
    rcases hc with ⟨x0, mid, rfl, hc⟩ | ⟨rfl, row, hf⟩
    · obtain ⟨A, B, hAB⟩ := (next_split ho).1 ((next_iff ho).2 ⟨mid, hc⟩)
      have hnd : (trainImportantStations rows).Nodup := ho
      rw [hAB] at hnd
      refine .inl ⟨A.map strKey, B.map strKey, ?_, ?_, ?_⟩
      · rw [hAB, List.map_append]; rfl
      · intro h
        obtain ⟨z, hz, hz'⟩ := List.mem_map.1 h
        cases hz'
        have := (List.nodup_append.1 hnd).2.2 _ hz _ (by simp : x ∈ x0 :: x :: B)
        exact this rfl
      · intro h
        cases h
        have := (List.nodup_append.1 hnd).2.1
        simp at this
    · have := firstStation_nth.2 ⟨row, hf⟩
      unfold nth at this
      split at this
      · rename_i z hz
        cases this
        rw [List.getElem?_eq_some_iff] at hz
        obtain ⟨hlt, hz⟩ := hz
        obtain ⟨y, B, hB⟩ := List.exists_cons_of_length_pos hlt
        refine .inr ⟨B.map strKey, ?_, rfl⟩
        have : y = x := by simp only [hB, List.getElem_cons_zero] at hz; exact hz
        rw [hB, this]; rfl
      · cases this

/-- every train has a previous station, or none, at each of its stations -/
theorem Gen.prev_exists (g : Gen td st table t1 r ts tt) {t : Int} {rows : List Row}
    (ht : TableOf td t rows) {x : String} (hx : Serves rows x) :
    ∃ p, PrevOf ts (.int t) (.str x) p := by
  have hm : Val.str x ∈ (trainImportantStations rows).map strKey :=
    List.mem_map.2 ⟨x, mem_stations.2 hx, rfl⟩
  obtain ⟨k, hk⟩ := index_mem.2 hm
  have : ∃ p, previousStation ((trainImportantStations rows).map strKey) (.str x) = .ok p := by
    unfold previousStation
    rw [hk]
    simp only
    split
    · exact ⟨_, rfl⟩
    · obtain ⟨l, r, hl, -, rfl⟩ := index_ok.1 hk
      unfold nth
      rw [hl]
      have : l.length - 1 < (l ++ Val.str x :: r).length := by
        simp only [List.length_append, List.length_cons]; omega
      rw [List.getElem?_eq_getElem this]
      exact ⟨_, rfl⟩
  obtain ⟨p, hp⟩ := this
  exact ⟨p, _, g.path_some ht, previousStation_iff.1 hp⟩

/-- the earliest departure from every station that the train leaves is found -/
theorem Gen.edt (g : Gen td st table t1 r ts tt) {t : Int} {s : String} (hl : Leaves td t s) :
    ∃ e, earliestDepTime ts.paths tt (.int t) (.str s) = .ok e := by
  have key : ∀ n t rows A s B, A.length = n → TableOf td t rows →
      trainImportantStations rows = A ++ s :: B → Leaves td t s →
      ∃ e, earliestDepTime ts.paths tt (.int t) (.str s) = .ok e := by
    intro n
    induction n with
    | zero =>
      intro t rows A s B hA ht hst _
      cases List.length_eq_zero_iff.1 hA
      obtain ⟨u, hu⟩ := (g.init t s).2 (by
        obtain ⟨row, hf⟩ := firstStation_nth.1 (show nth (trainImportantStations rows) 0 = .ok s by
          rw [hst]; rfl)
        exact ⟨rows, row, ht, hf⟩)
      exact ⟨_, (edt_unfold (g.path_some ht) (none_notMem_map _)).2 (.inl ⟨u, hu, rfl⟩)⟩
    | succ n ih =>
      intro t rows A s B hA ht hst hl
      have ho := (g.data.trains.table ht).1
      obtain ⟨A', p, rfl⟩ : ∃ A' p, A = A' ++ [p] := by
        rcases List.eq_nil_or_concat A with rfl | ⟨A', p, rfl⟩
        · cases hA
        · exact ⟨A', p, by simp⟩
      have hst' : trainImportantStations rows = A' ++ p :: s :: B := by simpa using hst
      obtain ⟨mid, hc⟩ := (next_iff ho).1 ((next_split ho).2 ⟨A', B, hst'⟩)
      obtain ⟨e, he⟩ := ih t rows A' p (s :: B) (by simpa using hA) ht hst'
        (leaves_of_next g.data ht hc)
      cases hu : Dict.get? tt.initialConditions (key2 (.int t) (.str s)) with
      | some u =>
        exact ⟨_, (edt_unfold (g.path_some ht) (none_notMem_map _)).2 (.inl ⟨u, hu, rfl⟩)⟩
      | none =>
        obtain ⟨row, hrow⟩ := hl
        exact ⟨_, (edt_unfold (g.path_some ht) (none_notMem_map _)).2 (.inr ⟨hu, _, _, _, e,
          g.prev.2 ⟨t, s, rows, rfl, rfl, ht, .inl ⟨p, mid, rfl, hc⟩⟩, g.pass _ _ _ _ _ ht hc,
          g.stop _ _ _ hrow, he, rfl⟩)⟩
  obtain ⟨row, rows, ht, hr, hs, hlast⟩ := hl
  obtain ⟨A, B, hAB⟩ := List.append_of_mem (mem_stations.2 ⟨row, hr, hs⟩)
  exact key _ t rows A s B rfl ht hAB ⟨row, rows, ht, hr, hs, hlast⟩

/-- every two trains with numbers `n`, `10 n + 9` meet: one ends in the block where the other
begins -/
def AllMeet (td : Trains) : Prop :=
  ∀ n ∈ Dict.keys td, 10 * n + 9 ∈ Dict.keys td →
    ∃ b, Meets td n (10 * n + 9) b ∨ Meets td (10 * n + 9) n b

/-- pairs of rolling stock -/
theorem Gen.round (g : Gen td st table t1 r ts tt) (hm : AllMeet td) {s : Val}
    {ps : List (Val × Val)} (hs : Dict.get? ts.Jround s = some ps) {q : Val × Val} (hq : q ∈ ps) :
    ∃ x t t', s = .str x ∧ q = (.int t, .int t') ∧ t ∈ Dict.keys td ∧ t' ∈ Dict.keys td ∧
      (t = 10 * t' + 9 ∨ t' = 10 * t + 9) ∧ ∃ b, Meets td t t' b ∧ BelongsTo st b x := by
  obtain ⟨o, ho, hJ⟩ := g.Jround
  rw [hJ] at hs
  obtain ⟨x, l, rfl, rfl, hl⟩ := get?_map_some strKey_inj
    (fun l : List (Int × Int) => l.map fun p => (intKey p.1, intKey p.2)) hs
  obtain ⟨p, hp, rfl⟩ := List.mem_map.1 hq
  obtain ⟨h1, h2, h3, h4⟩ := (C31_computed td st g.data.stations.1 hm o ho x p.1 p.2).1 ⟨l, hl, hp⟩
  exact ⟨x, p.1, p.2, rfl, rfl, h1, h2, h4.imp_right And.left, h3⟩

theorem meets_ends {t t' : Int} {b x : String} (h : Meets td t t' b) (hb : BelongsTo st b x) :
    EndsIn td st t x := by
  obtain ⟨⟨rows, r', ht, hl, rfl⟩, -⟩ := h
  exact ⟨rows, r', ht, hl, hb⟩

theorem Gen.continued (g : Gen td st table t1 r ts tt) (hm : AllMeet td) {j s jp : Val}
    (h : ContinuedBy ts j s jp) :
    ∃ x t t', s = .str x ∧ j = .int t ∧ jp = .int t' ∧ EndsIn td st t x := by
  obtain ⟨ps, hs, hf, -⟩ := h
  obtain ⟨x, t, t', rfl, hq, -, -, -, b, hb, hb'⟩ := g.round hm hs (List.mem_of_find?_eq_some hf)
  cases hq
  exact ⟨x, t, t', rfl, rfl, rfl, meets_ends hb hb'⟩

theorem Gen.mem_J (g : Gen td st table t1 r ts tt) {t : Int} :
    Val.int t ∈ ts.J ↔ ∃ rows, TableOf td t rows := by
  rw [g.J]
  constructor
  · intro h
    obtain ⟨t', ht', hk⟩ := List.mem_map.1 h
    cases hk
    obtain ⟨e, he⟩ := Option.isSome_iff_exists.1 ((Dict.get?_isSome td t).2 ht')
    exact ⟨e.2, e.1, he⟩
  · rintro ⟨rows, info, ht⟩
    exact List.mem_map.2 ⟨t, (Dict.get?_isSome td t).1 (by rw [ht]; rfl), rfl⟩

theorem Gen.leaves_of_delay (g : Gen td st table t1 r ts tt) {j s : Val} (h : HasDelay ts j s) :
    ∃ t x, j = .int t ∧ s = .str x ∧ Leaves td t x := by
  obtain ⟨-, ⟨path, hp, hs⟩, hsk, -⟩ := h
  obtain ⟨t, rows, rfl, ht, rfl⟩ := g.path.1 hp
  obtain ⟨x, hx, rfl⟩ := List.mem_map.1 hs
  exact ⟨t, x, rfl, rfl, (leaves_iff g.data).2 ⟨⟨rows, ht, mem_stations.1 hx⟩,
    fun he => hsk ((g.skips _ _).2 ⟨t, x, rfl, rfl, he⟩)⟩⟩

theorem Gen.delay_of_leaves (g : Gen td st table t1 r ts tt) (hm : AllMeet td) {t : Int} {s : String}
    (h : Leaves td t s) : HasDelay ts (.int t) (.str s) := by
  obtain ⟨⟨rows, ht, hs⟩, hne⟩ := (leaves_iff g.data).1 h
  refine ⟨g.mem_J.2 ⟨rows, ht⟩, ⟨_, g.path_some ht, List.mem_map.2 ⟨s, mem_stations.2 hs, rfl⟩⟩, ?_, ?_⟩
  · intro hsk
    obtain ⟨t', x, h1, h2, he⟩ := (g.skips _ _).1 hsk
    cases h1; cases h2
    exact hne he
  · intro jp hc
    obtain ⟨x, t', t'', h1, h2, -, he⟩ := g.continued hm hc
    cases h1; cases h2
    exact hne he

/-- where the delay variables are -/
theorem Gen.delayAt (g : Gen td st table t1 r ts tt) (hm : AllMeet td) {dmax : ℚ} {cat : Cat}
    {dv : DelayVars} (hdv : delayVariables ts dmax cat = .ok dv) {t : Int} {s : String}
    (h : Leaves td t s) : ∃ v, Verif.delayAt dv (.int t) (.str s) = .ok v :=
  ⟨_, delayAt_ok.2 ((delayVariables_find hdv).2 ⟨g.delay_of_leaves hm h, rfl⟩)⟩

theorem Gen.delayVariables (g : Gen td st table t1 r ts tt) (dmax : ℚ) (cat : Cat) :
    ∃ dv, Verif.delayVariables ts dmax cat = .ok dv := by
  refine delayVariables_ok_iff.2 ⟨?_, ?_⟩
  · intro j hj
    rw [g.J] at hj
    obtain ⟨t, ht, rfl⟩ := List.mem_map.1 hj
    obtain ⟨rows, ht⟩ := g.mem_J.1 (by rw [g.J]; exact hj)
    rw [show intKey t = Val.int t from rfl, g.path_some ht]; rfl
  · refine nodup_requests.2 fun j hj path hp s hs _ => ?_
    obtain ⟨t, rows, rfl, ht, rfl⟩ := g.path.1 hp
    have hJ : ts.J.Nodup := by rw [g.J]; exact g.data.trains.keys.map intKey_inj
    exact ⟨List.count_eq_one_of_mem hJ hj,
      List.count_eq_one_of_mem (List.Nodup.map strKey_inj (g.data.trains.table ht).1) hs⟩

end Verif
