import Verif.Proofs.Data

/-!
# C41, C43, C44: terminal stations, continuity of paths, passing times of blocks
-/

namespace Verif

/-! ## C41 -/

theorem skip_get? {td : Trains} {d : Dict Int String} (h : getSkipStations td = .ok d)
    (hnd : (Dict.keys td).Nodup) (t : Int) (s : String) :
    Dict.get? d t = some s ↔
      ∃ tt r, TableOf td t tt ∧ tt.getLast? = some r ∧ r.station = some s := by
  unfold getSkipStations at h
  unfold TableOf
  induction td generalizing d with
  | nil => simp only [collect, Except.ok.injEq] at h; subst h; simp [Dict.get?]
  | cons e td ih =>
    obtain ⟨k, info, tt⟩ := e
    simp only [Dict.keys, List.map_cons, List.nodup_cons] at hnd
    simp only [collect] at h
    cases hl : tt.getLast? with
    | none => rw [hl] at h; cases h
    | some r =>
      rw [hl] at h
      simp only at h
      split at h
      · cases h
      · rename_i b hb
        simp only [Except.ok.injEq] at h
        subst h
        have ih := ih hb hnd.2
        rw [Dict.get?_append]
        simp only [Dict.get?]
        by_cases hkt : k = t
        · subst hkt
          simp only [if_true]
          have hnone : Dict.get? b k = none := by
            cases hg : Dict.get? b k with
            | none => rfl
            | some s' =>
              have hm := Dict.mem_of_get? hg
              obtain ⟨e, he, a, ha, hin⟩ := (collect_ok hb).2 _ hm
              exfalso
              apply hnd.1
              rw [List.mem_map]
              refine ⟨e, he, ?_⟩
              split at ha
              · cases ha
              · split at ha
                · cases ha
                  simp only [List.mem_singleton, Prod.mk.injEq] at hin
                  exact hin.1.symm
                · cases ha; cases hin
          rw [hnone]
          cases hs : r.station with
          | none =>
            simp only [Dict.get?, Option.or_none, reduceCtorEq, false_iff]
            rintro ⟨tt', r', ⟨i, h1⟩, h2, h3⟩
            cases h1
            rw [hl] at h2; cases h2
            rw [hs] at h3; cases h3
          | some s' =>
            simp only [Dict.get?, if_true, Option.or_none, Option.some.injEq]
            constructor
            · rintro rfl
              exact ⟨tt, r, ⟨info, rfl⟩, hl, hs⟩
            · rintro ⟨tt', r', ⟨i, h1⟩, h2, h3⟩
              cases h1
              rw [hl] at h2; cases h2
              rw [hs] at h3; exact Option.some.inj h3
        · simp only [if_neg hkt]
          rw [← ih]
          cases r.station with
          | none => simp [Dict.get?]
          | some s' => simp [Dict.get?, hkt]

/-- C41: a train is mapped to `s` exactly when the last block of its timetable belongs to the
important station `s`. The tables are those that `update_all_timetables` makes of the sheet. -/
theorem C41_skip (table : List PathRow) (st : Stations) (td0 : Dict Int (Entry RawRow))
    (td : Trains) (d : Dict Int String) (hst : DisjointStations st)
    (hkeys : (Dict.keys td0).Nodup) (hup : updateAllTimetables table st td0 = .ok td)
    (hd : getSkipStations td = .ok d) (t : Int) (s : String) :
    Dict.get? d t = some s ↔
      ∃ info tt r, Dict.get? td0 t = some (info, tt) ∧ tt.getLast? = some r ∧
        BelongsTo st r.path s := by
  have hget := updateAll_get? hup t
  rw [skip_get? hd (by rw [updateAll_keys hup]; exact hkeys)]
  constructor
  · rintro ⟨tt, r, ⟨info, h1⟩, h2, h3⟩
    rw [h1] at hget
    refine ⟨info, tt.map Row.toRawRow, r.toRawRow, hget.symm, ?_, ?_⟩
    · rw [List.getLast?_map, h2]; rfl
    · exact (updateAll_tagged hst hup _ (Dict.mem_of_get? h1) r (List.mem_of_getLast? h2) s).1 h3
  · rintro ⟨info, tt, r, h1, h2, h3⟩
    rw [h1] at hget
    cases hg : Dict.get? td t with
    | none => rw [hg] at hget; cases hget
    | some e =>
      obtain ⟨i, tt'⟩ := e
      rw [hg] at hget
      simp only [Option.map_some, Option.some.injEq, Prod.mk.injEq] at hget
      obtain ⟨rfl, rfl⟩ := hget
      rw [List.getLast?_map] at h2
      cases hl : tt'.getLast? with
      | none => rw [hl] at h2; cases h2
      | some r' =>
        rw [hl] at h2
        simp only [Option.map_some, Option.some.injEq] at h2
        subst h2
        exact ⟨tt', r', ⟨i, hg⟩, hl,
          (updateAll_tagged hst hup _ (Dict.mem_of_get? hg) r' (List.mem_of_getLast? hl) s).2 h3⟩

/-- C41: the function fails (`IndexError`) exactly when some train has no block. -/
theorem C41_succeeds (td : Trains) :
    (∃ d, getSkipStations td = .ok d) ↔ ∀ e ∈ td, e.2.2 ≠ [] := by
  unfold getSkipStations
  induction td with
  | nil => simp [collect]
  | cons e td ih =>
    simp only [collect, List.forall_mem_cons, ← ih]
    cases hl : e.2.2.getLast? with
    | none =>
      rw [List.getLast?_eq_none_iff] at hl
      simp [hl]
    | some r =>
      have : e.2.2 ≠ [] := by intro h; rw [h] at hl; cases hl
      simp only [ne_eq, this, not_false_eq_true, true_and]
      constructor
      · rintro ⟨d, h⟩
        split at h
        · cases h
        · rename_i b hb; exact ⟨b, hb⟩
      · rintro ⟨b, hb⟩
        rw [hb]; exact ⟨_, rfl⟩

/-- stations `A`, `B` with one block each -/
def twoStations : Stations := [("A", ["a"]), ("B", ["b"])]

theorem twoStations_disjoint : DisjointStations twoStations := by
  refine ⟨by decide, ?_⟩
  rintro b s s' ⟨bs, h1, h2⟩ ⟨bs', h3, h4⟩
  simp only [twoStations, List.mem_cons, Prod.mk.injEq, List.not_mem_nil, or_false] at h1 h3
  rcases h1 with ⟨rfl, rfl⟩ | ⟨rfl, rfl⟩ <;> rcases h3 with ⟨rfl, rfl⟩ | ⟨rfl, rfl⟩ <;>
    simp_all

/-- path table for the line `a - l - b` -/
def smallPaths : List PathRow :=
  [{ prev := "a", next := "l", rAB := some 1, rBA := some 2, icAB := some (1/2), icBA := some 1 },
   { prev := "l", next := "b", rAB := some 3, rBA := some 4, icAB := some (3/2), icBA := some 2 }]

/-- a regional train from `A` to `B` and an inter city train from `B` that ends on the line -/
def smallSheet : Dict Int (Entry RawRow) :=
  [(1, (["KS - Os"], [{ path := "a", speed := some "R" }, { path := "l", speed := some "R" },
                     { path := "b", speed := some "R" }])),
   (2, (["IC - IC"], [{ path := "b", speed := some "IC" }, { path := "l", speed := some "IC" }]))]

/-- the hypotheses of `C41_skip` for two trains -/
example : (Dict.keys smallSheet).Nodup ∧ ∃ td, updateAllTimetables smallPaths twoStations smallSheet
    = .ok td ∧ getSkipStations td = .ok [(1, "B")] := by
  refine ⟨by decide, _, rfl, ?_⟩
  decide +kernel

/-! ## C43 -/

/-- C43, full statement: whenever two consecutive blocks are not joined by a row of the table, the
check raises `AssertionError`. -/
def C43_statement : Prop :=
  ∀ (table : List PathRow) (pre post : List String) (a b : String),
    (¬ ∃ r ∈ table, Joins r a b) →
    checkPathContinuity table (pre ++ a :: b :: post) = .error .assertionError

theorem continuityStep_iff (table : List PathRow) (a b : String) :
    continuityStep table a b = .error .assertionError ↔
      (¬ ∃ r ∈ table, (r.prev = a ∨ r.prev = b) ∧ (r.next = a ∨ r.next = b)) ∧
      ((¬ ∃ r ∈ table, r.prev = a ∨ r.next = a) ∨ (¬ ∃ r ∈ table, r.prev = b ∨ r.next = b)) := by
  unfold continuityStep
  have e1 : table.any (fun r => (r.prev = a || r.prev = b) && (r.next = a || r.next = b)) = false ↔
      ¬ ∃ r ∈ table, (r.prev = a ∨ r.prev = b) ∧ (r.next = a ∨ r.next = b) := by
    rw [← Bool.not_eq_true, List.any_eq_true]
    simp only [Bool.and_eq_true, Bool.or_eq_true, decide_eq_true_eq]
  have e2 : ∀ c, table.any (fun r => r.prev = c || r.next = c) = false ↔
      ¬ ∃ r ∈ table, r.prev = c ∨ r.next = c := by
    intro c
    rw [← Bool.not_eq_true, List.any_eq_true]
    simp only [Bool.or_eq_true, decide_eq_true_eq]
  by_cases h1 : ∃ r ∈ table, (r.prev = a ∨ r.prev = b) ∧ (r.next = a ∨ r.next = b)
  · rw [if_neg (by rw [e1]; exact not_not.2 h1)]
    constructor
    · intro h; cases h
    · intro h; exact absurd h1 h.1
  · rw [if_pos (e1.2 h1)]
    by_cases h2 : ∃ r ∈ table, r.prev = a ∨ r.next = a
    · rw [if_neg (by rw [e2]; exact not_not.2 h2)]
      by_cases h3 : ∃ r ∈ table, r.prev = b ∨ r.next = b
      · rw [if_neg (by rw [e2]; exact not_not.2 h3)]
        constructor
        · intro h; cases h
        · rintro ⟨_, h | h⟩
          exacts [absurd h2 h, absurd h3 h]
      · rw [if_pos ((e2 b).2 h3)]
        exact ⟨fun _ => ⟨h1, .inr h3⟩, fun _ => rfl⟩
    · rw [if_pos ((e2 a).2 h2)]
      exact ⟨fun _ => ⟨h1, .inl h2⟩, fun _ => rfl⟩

theorem continuityStep_cases (table : List PathRow) (a b : String) :
    continuityStep table a b = .ok () ∨ continuityStep table a b = .error .assertionError := by
  unfold continuityStep
  split
  · split
    · exact .inr rfl
    · split
      · exact .inr rfl
      · exact .inl rfl
  · exact .inl rfl

theorem continuity_iff (table : List PathRow) (p : List String) :
    checkPathContinuity table p = .error .assertionError ↔
      ∃ pre post a b, p = pre ++ a :: b :: post ∧
        continuityStep table a b = .error .assertionError := by
  induction p with
  | nil =>
    simp only [checkPathContinuity, reduceCtorEq, false_iff]
    rintro ⟨pre, post, a, b, h, _⟩
    simp at h
  | cons x p ih =>
    cases p with
    | nil =>
      simp only [checkPathContinuity, reduceCtorEq, false_iff]
      rintro ⟨pre, post, a, b, h, _⟩
      have := congrArg List.length h
      simp at this
      omega
    | cons y p =>
      simp only [checkPathContinuity]
      rcases continuityStep_cases table x y with h | h
      · rw [h]
        change checkPathContinuity table (y :: p) = _ ↔ _
        rw [ih]
        constructor
        · rintro ⟨pre, post, a, b, h1, h2⟩
          exact ⟨x :: pre, post, a, b, by rw [h1]; rfl, h2⟩
        · rintro ⟨pre, post, a, b, h1, h2⟩
          cases pre with
          | nil =>
            simp only [List.nil_append, List.cons.injEq] at h1
            obtain ⟨rfl, rfl, rfl⟩ := h1
            rw [h] at h2; cases h2
          | cons z pre =>
            simp only [List.cons_append, List.cons.injEq] at h1
            exact ⟨pre, post, a, b, h1.2, h2⟩
      · rw [h]
        constructor
        · intro _
          exact ⟨[], p, x, y, rfl, h⟩
        · intro _; rfl

/-- C43, what holds: the check raises exactly if there are two consecutive blocks such that no row
of the table has both its ends among them and one of the two does not occur in the table at all.
Missing: two blocks that both occur in the table without being joined. -/
theorem C43_rejects_partial (table : List PathRow) (p : List String) :
    checkPathContinuity table p = .error .assertionError ↔
      ∃ pre post a b, p = pre ++ a :: b :: post ∧
        (¬ ∃ r ∈ table, (r.prev = a ∨ r.prev = b) ∧ (r.next = a ∨ r.next = b)) ∧
        ((¬ ∃ r ∈ table, r.prev = a ∨ r.next = a) ∨ (¬ ∃ r ∈ table, r.prev = b ∨ r.next = b)) := by
  rw [continuity_iff]
  simp only [continuityStep_iff]

/-- C43: the check never raises anything else. -/
theorem C43_only_assertion (table : List PathRow) (p : List String) :
    checkPathContinuity table p = .ok () ∨
      checkPathContinuity table p = .error .assertionError := by
  induction p with
  | nil => exact .inl rfl
  | cons x p ih =>
    cases p with
    | nil => exact .inl rfl
    | cons y p =>
      simp only [checkPathContinuity]
      rcases continuityStep_cases table x y with h | h
      · rw [h]; exact ih
      · rw [h]; exact .inr rfl

/-- C43: a path all of whose consecutive blocks are joined is accepted. -/
theorem C43_accepts (table : List PathRow) (p : List String)
    (h : ∀ pre post a b, p = pre ++ a :: b :: post → ∃ r ∈ table, Joins r a b) :
    checkPathContinuity table p = .ok () := by
  rcases C43_only_assertion table p with h1 | h1
  · exact h1
  · rw [C43_rejects_partial] at h1
    obtain ⟨pre, post, a, b, h2, h3, _⟩ := h1
    obtain ⟨r, hr, hj⟩ := h pre post a b h2
    refine absurd ⟨r, hr, ?_⟩ h3
    rcases hj with ⟨rfl, rfl⟩ | ⟨rfl, rfl⟩
    · exact ⟨.inl rfl, .inr rfl⟩
    · exact ⟨.inr rfl, .inl rfl⟩

/-- C43 is false of the code: `a` and `b` are not joined, but both occur in the table. -/
theorem C43_false : ¬ C43_statement := by
  intro h
  have := h smallPaths [] [] "a" "b" (by simp [smallPaths, Joins])
  revert this
  decide +kernel

/-- the right side of `C43_rejects_partial` for a path to a block outside the table, and the
hypothesis of `C43_accepts` for a path along it -/
example : checkPathContinuity smallPaths ["a", "l", "x"] = .error .assertionError ∧
    checkPathContinuity smallPaths ["b", "l", "a"] = .ok () := by decide +kernel

/-! ## C44 -/

/-- C44, full statement: the value for the run from `a` to `b` is that of a row of the table joining
the two blocks, in the column of the travel direction and the speed class. -/
def C44_statement (table : List PathRow) (a b : String) (speed : Option String) (v : Option ℚ) :
    Prop :=
  ∃ r ∈ table, RowTime r a b speed v

/-- C44: one value per block, an empty cell for the last one, and the others are computed for the
pairs of consecutive blocks with the speed class of the first of the two. -/
theorem C44_shape (table : List PathRow) (tt : List RawRow) (ts : List (Option ℚ)) (hne : tt ≠ [])
    (h : passingTimes4blocks table tt = .ok ts) :
    ts.length = tt.length ∧ ts.getLast? = some none ∧
      ∀ i (a b : RawRow), tt[i]? = some a → tt[i + 1]? = some b →
        ∃ v, ts[i]? = some v ∧ singlePassingTime table a.path b.path a.speed = .ok v := by
  obtain ⟨us, h3, h4⟩ := bind_ok h
  simp only [Except.ok.injEq] at h4
  subst h4
  have hf := mapPy_forall₂ h3
  have hlen := hf.length_eq
  simp only [List.length_zip, List.length_map, List.length_drop] at hlen
  have hpos : 0 < tt.length := List.length_pos_of_ne_nil hne
  refine ⟨by simp; omega, by simp, ?_⟩
  intro i a b ha hb
  have hi : i + 1 < tt.length := (List.getElem?_eq_some_iff.1 hb).1
  have hiu : i < us.length := by omega
  refine ⟨us[i], ?_, ?_⟩
  · rw [List.getElem?_append_left hiu, List.getElem?_eq_getElem hiu]
  · rw [List.forall₂_iff_get] at hf
    have := hf.2 i (by rw [hf.1]; exact hiu) hiu
    simp only [List.get_eq_getElem, List.getElem_zip, List.getElem_map, List.getElem_drop] at this
    have e1 : tt[i] = a := (List.getElem?_eq_some_iff.1 ha).2
    have e2 : tt[i + 1] = b := (List.getElem?_eq_some_iff.1 hb).2
    simp only [Nat.add_comm 1 i, e1, e2] at this
    exact this

/-- C44 for one pair of blocks: if no row of the table leads from a block of the pair to itself and
the table does not join the pair in both directions, the value is the right one. Missing: tables
that join a pair in both directions. -/
theorem C44_value_partial (table : List PathRow) (a b : String) (speed : Option String)
    (v : Option ℚ) (hself : ∀ r ∈ table, r.prev = r.next → r.prev ≠ a ∧ r.prev ≠ b)
    (hone : ¬ ((∃ r ∈ table, r.prev = a ∧ r.next = b) ∧ (∃ r ∈ table, r.prev = b ∧ r.next = a)))
    (h : singlePassingTime table a b speed = .ok v) : C44_statement table a b speed v := by
  unfold singlePassingTime at h
  simp only at h
  split at h
  · cases h
  · rename_i first rest hf
    have hmem : first ∈ table.filter fun r =>
        decide ((r.prev = a ∨ r.prev = b) ∧ (r.next = a ∨ r.next = b)) := by
      rw [hf]; exact List.mem_cons_self
    rw [List.mem_filter] at hmem
    obtain ⟨hm, hc⟩ := hmem
    simp only [decide_eq_true_eq] at hc
    have horient : (first.prev = a ∧ first.next = b) ∨ (first.prev = b ∧ first.next = a) := by
      rcases hc with ⟨h1 | h1, h2 | h2⟩
      · exact absurd h1 (hself first hm (h1.trans h2.symm)).1
      · exact .inl ⟨h1, h2⟩
      · exact .inr ⟨h1, h2⟩
      · exact absurd h1 (hself first hm (h1.trans h2.symm)).2
    have hpt : ∀ ab, pathTime speed ab first = .ok v →
        (speed = some "R" ∧ v = (if ab then first.rAB else first.rBA)) ∨
        (speed = some "IC" ∧ v = (if ab then first.icAB else first.icBA)) := by
      intro ab hp
      unfold pathTime at hp
      split at hp
      · cases hp; rename_i hs; exact .inl ⟨hs, rfl⟩
      · split at hp
        · cases hp; rename_i hs; exact .inr ⟨hs, rfl⟩
        · cases hp
    refine ⟨first, hm, ?_⟩
    split at h
    · rename_i hany
      rw [List.any_eq_true] at hany
      obtain ⟨r, hr, hra⟩ := hany
      rw [List.mem_filter] at hr
      obtain ⟨hrm, hrc⟩ := hr
      simp only [decide_eq_true_eq] at hra hrc
      have hrb : r.next = b := by
        rcases hrc.2 with h2 | h2
        · exact absurd hra (hself r hrm (hra.trans h2.symm)).1
        · exact h2
      have hfa : first.prev = a ∧ first.next = b := by
        rcases horient with h1 | h1
        · exact h1
        · exact absurd ⟨⟨r, hrm, hra, hrb⟩, ⟨first, hm, h1⟩⟩ hone
      exact .inl ⟨hfa.1, hfa.2, by simpa using hpt _ h⟩
    · rename_i hany
      have hfb : first.prev = b ∧ first.next = a := by
        rcases horient with h1 | h1
        · exfalso
          apply hany
          rw [hf, List.any_cons]
          simp [h1.1]
        · exact h1
      split at h
      · exact .inr ⟨hfb.1, hfb.2, by simpa using hpt _ h⟩
      · cases h

/-- C44: if two consecutive blocks are not joined (by whatever row between them), reading the
timetable raises `AssertionError`; an unknown speed class raises `SystemExit`. -/
theorem C44_raises (table : List PathRow) (a b : String) (speed : Option String) :
    ((∀ r ∈ table, ¬ ((r.prev = a ∨ r.prev = b) ∧ (r.next = a ∨ r.next = b))) →
      singlePassingTime table a b speed = .error .assertionError) ∧
    ((∃ r ∈ table, Joins r a b) → speed ≠ some "R" → speed ≠ some "IC" →
      singlePassingTime table a b speed = .error .systemExit) ∧
    ((∃ r ∈ table, Joins r a b) → (speed = some "R" ∨ speed = some "IC") →
      ∃ v, singlePassingTime table a b speed = .ok v) := by
  refine ⟨?_, ?_, ?_⟩
  · intro h
    unfold singlePassingTime
    have : (table.filter fun r =>
        decide ((r.prev = a ∨ r.prev = b) ∧ (r.next = a ∨ r.next = b))) = [] := by
      rw [List.filter_eq_nil_iff]
      intro r hr
      simpa using h r hr
    simp only [this]
  all_goals
    rintro ⟨r, hr, hj⟩
    have hmem : r ∈ table.filter fun r =>
        decide ((r.prev = a ∨ r.prev = b) ∧ (r.next = a ∨ r.next = b)) := by
      rw [List.mem_filter]
      refine ⟨hr, ?_⟩
      rcases hj with ⟨rfl, rfl⟩ | ⟨rfl, rfl⟩ <;> simp
    have hside : r.prev = a ∨ r.next = a := by
      rcases hj with ⟨h, _⟩ | ⟨_, h⟩
      exacts [.inl h, .inr h]
    unfold singlePassingTime
    simp only
    split
    · rename_i h; rw [h] at hmem; cases hmem
    · rename_i first rest hf
      rw [hf] at hmem
      rcases hside with hs | hs
      · rw [hf, if_pos (List.any_eq_true.2 ⟨r, hmem, by simpa using hs⟩)]
        simp +contextual [pathTime]
        try (rintro (h | h) <;> simp [h])
      · rw [hf]
        split
        · simp +contextual [pathTime]
          try (rintro (h | h) <;> simp [h])
        · rw [if_pos (List.any_eq_true.2 ⟨r, hmem, by simpa using hs⟩)]
          simp +contextual [pathTime]
          try (rintro (h | h) <;> simp [h])

/-- C44 for a whole timetable: one value per block, none for the last, and each of the others is the
value of a row joining the block with the next one, in the column of the travel direction and the
speed class. Missing: path tables that join a pair of blocks in both directions or a block with
itself. -/
theorem C44_passing_partial (table : List PathRow) (tt : List RawRow) (ts : List (Option ℚ))
    (hne : tt ≠ []) (hself : ∀ r ∈ table, r.prev ≠ r.next)
    (hone : ∀ r ∈ table, ∀ r' ∈ table, ¬ (r.prev = r'.next ∧ r.next = r'.prev))
    (h : passingTimes4blocks table tt = .ok ts) :
    ts.length = tt.length ∧ ts.getLast? = some none ∧
      ∀ i (a b : RawRow), tt[i]? = some a → tt[i + 1]? = some b →
        ∃ v, ts[i]? = some v ∧ C44_statement table a.path b.path a.speed v := by
  obtain ⟨h1, h2, h3⟩ := C44_shape table tt ts hne h
  refine ⟨h1, h2, ?_⟩
  intro i a b ha hb
  obtain ⟨v, hv, hs⟩ := h3 i a b ha hb
  refine ⟨v, hv, C44_value_partial table a.path b.path a.speed v
    (fun r hr he => absurd he (hself r hr)) ?_ hs⟩
  rintro ⟨⟨r, hr, e1, e2⟩, ⟨r', hr', e3, e4⟩⟩
  exact hone r hr r' hr' ⟨e1.trans e4.symm, e2.trans e3.symm⟩

/-- a table with a row for each direction -/
def bothWays : List PathRow :=
  [{ prev := "b", next := "a", rAB := some 5, rBA := some 6 },
   { prev := "a", next := "b", rAB := some 1, rBA := some 2 }]

/-- C44 is false of the code: with a row for each direction, the direction is taken from one row and
the value from another. -/
theorem C44_false : ¬ ∀ table a b speed v, singlePassingTime table a b speed = .ok v →
    C44_statement table a b speed v := by
  intro h
  obtain ⟨r, hr, ht⟩ := h bothWays "a" "b" (some "R") (some 5) (by decide +kernel)
  simp only [bothWays, List.mem_cons, List.not_mem_nil, or_false] at hr
  rcases hr with rfl | rfl <;> simp [RowTime] at ht

/-- the hypotheses of `C44_passing_partial` for a table of two rows and a train of three blocks -/
example : (∀ r ∈ smallPaths, r.prev ≠ r.next) ∧
    (∀ r ∈ smallPaths, ∀ r' ∈ smallPaths, ¬ (r.prev = r'.next ∧ r.next = r'.prev)) ∧
    passingTimes4blocks smallPaths [{ path := "b", speed := some "R" },
      { path := "l", speed := some "IC" }, { path := "a" }] = .ok [some 4, some 1, none] := by
  refine ⟨by simp [smallPaths], by simp [smallPaths], by decide +kernel⟩

end Verif
