import Verif.Props.Schedule

/-!
# C40: penalty weights
-/

namespace Verif

/-- `s` is the last important station of the train that is not the one to be skipped -/
def LastServed (skip : Option String) (tt : List Row) (s : String) : Prop :=
  ∃ pre row post, tt = pre ++ row :: post ∧ row.station = some s ∧ skip ≠ some s ∧
    ∀ r ∈ post, r.station = none ∨ (skip.isSome ∧ r.station = skip)

/-- the weight of a type of trains -/
def TypeWeight (stopping fast express : ℚ) (ty : String) (w : ℚ) : Prop :=
  (ty ∈ ["KS - Os", "PR - R", "KS - OsP"] ∧ w = stopping) ∨
  (ty ∈ ["IC - TLK", "IC - IC"] ∧ w = fast) ∨
  (ty ∈ ["IC - EIP", "IC - EIC"] ∧ w = express)

/-- the train is the shunting train of another one -/
def Shunting (td : Trains) (t : Int) : Prop :=
  t ∈ Dict.keys td ∧ ∃ n ∈ Dict.keys td, t = 10 * n + 9

/-- the trains that the code takes for shunting trains: the number without its last digit is a
train of a pair `n`, `10 n + 9` -/
def TakenForShunting (td : Trains) (t : Int) : Prop :=
  ∃ n ∈ Dict.keys td, 10 * n + 9 ∈ Dict.keys td ∧ (t / 10 = n ∨ t / 10 = 10 * n + 9)

theorem mem_pair9 {td : Trains} {p : Int × Int} :
    p ∈ getTrainsPair9 td ↔ p.1 ∈ Dict.keys td ∧ p.2 ∈ Dict.keys td ∧ p.2 = 10 * p.1 + 9 := by
  unfold getTrainsPair9 getJ
  rw [List.mem_flatMap]
  constructor
  · rintro ⟨t, ht, h⟩
    split at h
    · rename_i h9
      simp only [List.mem_singleton] at h
      subst h
      exact ⟨ht, h9, by ring⟩
    · cases h
  · obtain ⟨a, b⟩ := p
    rintro ⟨h1, h2, h3⟩
    simp only at h1 h2 h3
    refine ⟨a, h1, ?_⟩
    have e : a * 10 + 9 = b := by rw [h3]; ring
    rw [if_pos (by rw [e]; exact h2), e]
    simp

theorem mem_flat_pair9 {td : Trains} {t : Int} :
    t / 10 ∈ flatten ((getTrainsPair9 td).map fun p => [p.1, p.2]) ↔ TakenForShunting td t := by
  unfold flatten TakenForShunting
  rw [List.mem_flatMap]
  constructor
  · rintro ⟨l, hl, h⟩
    obtain ⟨p, hp, rfl⟩ := List.mem_map.1 hl
    obtain ⟨h1, h2, h3⟩ := mem_pair9.1 hp
    refine ⟨p.1, h1, h3 ▸ h2, ?_⟩
    simp only [List.mem_cons, List.not_mem_nil, or_false] at h
    rw [h3] at h
    exact h
  · rintro ⟨n, h1, h2, h3⟩
    refine ⟨_, List.mem_map.2 ⟨(n, 10 * n + 9), mem_pair9.2 ⟨h1, h2, rfl⟩, rfl⟩, ?_⟩
    simpa using h3

theorem fromEnd_one {α : Type} (l : List α) (x : α) : fromEnd (l ++ [x]) 1 = .ok x := by
  unfold fromEnd nth
  simp

theorem fromEnd_two {α : Type} (l : List α) (x y : α) : fromEnd (l ++ [x, y]) 2 = .ok x := by
  unfold fromEnd nth
  simp

theorem fromEnd_two_iff {α : Type} {l : List α} {y x : α} :
    fromEnd (l ++ [y]) 2 = .ok x ↔ ∃ l', l = l' ++ [x] := by
  constructor
  · intro h
    rcases List.eq_nil_or_concat l with rfl | ⟨l', z, rfl⟩
    · simp [fromEnd] at h
    · rw [List.concat_eq_append, List.append_assoc] at h
      simp only [List.singleton_append] at h
      rw [fromEnd_two] at h
      cases h
      exact ⟨l', by rw [List.concat_eq_append]⟩
  · rintro ⟨l', rfl⟩
    rw [List.append_assoc]
    exact fromEnd_two _ _ _

theorem stations_append (a b : List Row) :
    trainImportantStations (a ++ b) = trainImportantStations a ++ trainImportantStations b := by
  simp [trainImportantStations]

/-- splitting a timetable at its last important station -/
theorem last_split {tt : List Row} {l : List String} {s : String}
    (h : trainImportantStations tt = l ++ [s]) :
    ∃ pre row post, tt = pre ++ row :: post ∧ row.station = some s ∧
      trainImportantStations pre = l ∧ ∀ r ∈ post, r.station = none := by
  induction tt generalizing l with
  | nil => simp [trainImportantStations] at h
  | cons r tt ih =>
    cases hs : r.station with
    | none =>
      have e : trainImportantStations (r :: tt) = trainImportantStations tt := by
        simp [trainImportantStations, hs]
      rw [e] at h
      obtain ⟨pre, row, post, rfl, h1, h2, h3⟩ := ih h
      refine ⟨r :: pre, row, post, rfl, h1, ?_, h3⟩
      rw [← h2]; simp [trainImportantStations, hs]
    | some s' =>
      have e : trainImportantStations (r :: tt) = s' :: trainImportantStations tt := by
        simp [trainImportantStations, hs]
      rw [e] at h
      cases l with
      | nil =>
        simp only [List.nil_append, List.cons.injEq] at h
        refine ⟨[], r, tt, rfl, by rw [hs, h.1], by simp [trainImportantStations], ?_⟩
        intro x hx
        by_contra hne
        obtain ⟨y, hy⟩ := Option.ne_none_iff_exists'.1 hne
        have : y ∈ trainImportantStations tt := List.mem_filterMap.2 ⟨x, hx, hy⟩
        rw [h.2] at this; cases this
      | cons a l =>
        simp only [List.cons_append, List.cons.injEq] at h
        obtain ⟨pre, row, post, rfl, h1, h2, h3⟩ := ih h.2
        refine ⟨r :: pre, row, post, rfl, h1, ?_, h3⟩
        rw [← h2, ← h.1]; simp [trainImportantStations, hs]

theorem stations_none {l : List Row} (h : ∀ r ∈ l, r.station = none) :
    trainImportantStations l = [] := by
  unfold trainImportantStations
  rw [List.filterMap_eq_nil_iff]
  exact h

/-- the station of the weight -/
def weightStation (skip : Option String) (tt : List Row) : Py String := do
  let s ← fromEnd (trainImportantStations tt) 1
  if skip = some s then fromEnd (trainImportantStations tt) 2 else .ok s

theorem weightStation_iff {skip : Option String} {tt : List Row} (ho : OnceEach tt) {s : String} :
    weightStation skip tt = .ok s ↔ LastServed skip tt s := by
  have hnd : (trainImportantStations tt).Nodup := ho
  unfold weightStation
  rcases List.eq_nil_or_concat (trainImportantStations tt) with he | ⟨l, z, he⟩
  · rw [he]
    constructor
    · intro h
      simp [fromEnd, bind, Except.bind] at h
    · rintro ⟨pre, row, post, rfl, h1, _⟩
      simp [trainImportantStations, h1] at he
  · rw [List.concat_eq_append] at he
    rw [he, fromEnd_one]
    simp only [bind, Except.bind]
    rw [he] at hnd
    obtain ⟨pre, row, post, rfl, h1, h2, h3⟩ := last_split he
    constructor
    · intro h
      split at h
      · rename_i hsk
        obtain ⟨l', rfl⟩ := fromEnd_two_iff.1 h
        obtain ⟨pre', row', post', rfl, h1', h2', h3'⟩ := last_split h2
        refine ⟨pre', row', post' ++ row :: post, by simp, h1', ?_, ?_⟩
        · rw [hsk]
          intro e
          cases e
          simp [List.nodup_append] at hnd
        · intro r hr
          rcases List.mem_append.1 hr with hr | hr
          · exact .inl (h3' r hr)
          · rcases List.mem_cons.1 hr with rfl | hr
            · right; rw [hsk, h1]; simp
            · exact .inl (h3 r hr)
      · rename_i hsk
        cases h
        exact ⟨pre, row, post, rfl, h1, hsk, fun r hr => .inl (h3 r hr)⟩
    · rintro ⟨pre', row', post', e, h1', h2', h3'⟩
      have hall : trainImportantStations post' = [] ∨
          ∃ sk, skip = some sk ∧ ∀ x ∈ trainImportantStations post', x = sk := by
        cases skip with
        | none =>
          left
          refine stations_none fun r hr => ?_
          rcases h3' r hr with h | ⟨h, _⟩
          · exact h
          · cases h
        | some sk =>
          right
          refine ⟨sk, rfl, ?_⟩
          intro x hx
          obtain ⟨r, hr, hrx⟩ := mem_stations.1 hx
          rcases h3' r hr with h | ⟨_, h⟩
          · rw [hrx] at h; cases h
          · rw [hrx] at h; exact Option.some.inj h
      have he' : trainImportantStations pre' ++ s :: trainImportantStations post' = l ++ [z] := by
        rw [← he, e, stations_append]
        congr 1
        simp [trainImportantStations, h1']
      rcases List.eq_nil_or_concat (trainImportantStations post') with hp | ⟨q, y, hp⟩
      · rw [hp] at he'
        have := List.append_inj' he' rfl
        have hz : s = z := by simpa using this.2
        subst hz
        rw [if_neg h2']
      · rw [List.concat_eq_append] at hp
        rcases hall with h | ⟨sk, rfl, h⟩
        · rw [hp] at h; simp at h
        · have hq : q = [] := by
            cases q with
            | nil => rfl
            | cons a q =>
              exfalso
              have ha := h a (by rw [hp]; simp)
              have hy := h y (by rw [hp]; simp)
              rw [hp] at he'
              rw [← he', ha, hy] at hnd
              simp [List.nodup_append] at hnd
          subst hq
          rw [hp] at he' h
          have hy := h y (by simp)
          subst hy
          simp only [List.nil_append] at he'
          have e2 : trainImportantStations pre' ++ [s] ++ [y] = l ++ [z] := by
            rw [← he']; simp
          have := List.append_inj' e2 rfl
          have hz : y = z := by simpa using this.2
          subst hz
          rw [if_pos rfl]
          exact fromEnd_two_iff.2 ⟨_, this.1.symm⟩

theorem typeWeight_iff {stopping fast express : ℚ} {ty : String} {w : ℚ} :
    Dict.at! (trainsWeights stopping fast express) ty = .ok w ↔
      TypeWeight stopping fast express ty w := by
  rw [Dict.at!_ok]
  unfold trainsWeights TypeWeight
  simp only [Dict.get?, List.mem_cons, List.not_mem_nil, or_false]
  by_cases h1 : "KS - Os" = ty
  · subst h1; simp [eq_comm]
  by_cases h2 : "PR - R" = ty
  · subst h2; simp [eq_comm]
  by_cases h3 : "KS - OsP" = ty
  · subst h3; simp [eq_comm]
  by_cases h4 : "IC - TLK" = ty
  · subst h4; simp [eq_comm]
  by_cases h5 : "IC - IC" = ty
  · subst h5; simp [eq_comm]
  by_cases h6 : "IC - EIP" = ty
  · subst h6; simp [eq_comm]
  by_cases h7 : "IC - EIC" = ty
  · subst h7; simp [eq_comm]
  · simp [h1, h2, h3, h4, h5, h6, h7, Ne.symm h1, Ne.symm h2, Ne.symm h3, Ne.symm h4, Ne.symm h5,
      Ne.symm h6, Ne.symm h7]

/-- the type of a train is the first item of its description -/
def TypeOf (info : List String) (ty : String) : Prop := ∃ rest, info = ty :: rest

open Classical in
/-- the weight of a train, if exactly the trains in `P` have the empty weight -/
noncomputable def weightOf (P : Int → Prop) (empty : ℚ) (t : Int) (w : ℚ) : ℚ :=
  if P t then empty else w

/-- the entry of one train -/
def weightEntry (td : Trains) (skip : Dict Int String) (stopping fast express empty : ℚ)
    (e : Int × Entry Row) : Py (Dict String ℚ) := do
  let ty ← nth e.2.1 0
  let w ← Dict.at! (trainsWeights stopping fast express) ty
  let pairs9 := flatten ((getTrainsPair9 td).map fun p => [p.1, p.2])
  let w := if e.1 / 10 ∈ pairs9 then empty else w
  let s ← weightStation (Dict.get? skip e.1) e.2.2
  .ok [(key2 (.int e.1) (.str s), w)]

theorem makeWeights_eq (td : Trains) (skip : Dict Int String) (stopping fast express empty : ℚ) :
    makeWeights td skip stopping fast express empty =
      (collect td (weightEntry td skip stopping fast express empty) >>=
        fun es => .ok (Dict.update [] es)) := by
  unfold makeWeights
  refine loop_update (fun d e _ => ?_) []
  unfold weightStep weightEntry weightStation
  cases nth e.2.1 0 with
  | error x => rfl
  | ok ty =>
    simp only [bind, Except.bind]
    cases Dict.at! (trainsWeights stopping fast express) ty with
    | error x => rfl
    | ok w =>
      simp only
      cases fromEnd (trainImportantStations e.2.2) 1 with
      | error x => rfl
      | ok s =>
        simp only
        split
        · cases fromEnd (trainImportantStations e.2.2) 2 <;> rfl
        · rfl

theorem weightEntry_iff {td : Trains} {skip : Dict Int String} {stopping fast express empty : ℚ}
    {e : Int × Entry Row} (ho : OnceEach e.2.2) {es : Dict String ℚ} :
    weightEntry td skip stopping fast express empty e = .ok es ↔ ∃ ty w s, TypeOf e.2.1 ty ∧
      TypeWeight stopping fast express ty w ∧ LastServed (Dict.get? skip e.1) e.2.2 s ∧
      es = [(key2 (.int e.1) (.str s), weightOf (TakenForShunting td) empty e.1 w)] := by
  have hw : ∀ w : ℚ, (if e.1 / 10 ∈ flatten ((getTrainsPair9 td).map fun p => [p.1, p.2]) then empty
      else w) = weightOf (TakenForShunting td) empty e.1 w := by
    intro w
    unfold weightOf
    by_cases h : e.1 / 10 ∈ flatten ((getTrainsPair9 td).map fun p => [p.1, p.2])
    · rw [if_pos h, if_pos (mem_flat_pair9.1 h)]
    · rw [if_neg h, if_neg (fun h' => h (mem_flat_pair9.2 h'))]
  have hty : ∀ ty, nth e.2.1 0 = .ok ty ↔ TypeOf e.2.1 ty := by
    intro ty
    unfold nth TypeOf
    cases e.2.1 with
    | nil => simp
    | cons a l => simp [eq_comm]
  unfold weightEntry
  constructor
  · intro h
    obtain ⟨ty, h1, h⟩ := bind_ok h
    obtain ⟨w, h2, h⟩ := bind_ok h
    obtain ⟨s, h3, h⟩ := bind_ok h
    cases h
    rw [hw]
    exact ⟨ty, w, s, (hty ty).1 h1, typeWeight_iff.1 h2, (weightStation_iff ho).1 h3, rfl⟩
  · rintro ⟨ty, w, s, h1, h2, h3, rfl⟩
    rw [(hty ty).2 h1, ← hw]
    simp only [bind, Except.bind]
    rw [typeWeight_iff.2 h2, (weightStation_iff ho).2 h3]

theorem LastServed.unique {skip : Option String} {tt : List Row} (ho : OnceEach tt) {s s' : String}
    (h : LastServed skip tt s) (h' : LastServed skip tt s') : s = s' := by
  rw [← weightStation_iff ho] at h h'
  rw [h] at h'; exact Except.ok.inj h'

/-- What the code computes: one weight per train, at its last served station, by the type of the
train; the empty weight for the trains in `TakenForShunting`. -/
theorem C40_computed (td : Trains) (hk : (Dict.keys td).Nodup) (ho : ∀ e ∈ td, OnceEach e.2.2)
    (skip : Dict Int String) (stopping fast express empty : ℚ) (d : Dict String ℚ)
    (h : makeWeights td skip stopping fast express empty = .ok d) :
    (∀ k v, Dict.get? d k = some v ↔ ∃ t info tt ty w s, Dict.get? td t = some (info, tt) ∧
      TypeOf info ty ∧ TypeWeight stopping fast express ty w ∧
      LastServed (Dict.get? skip t) tt s ∧ k = key2 (.int t) (.str s) ∧
      v = weightOf (TakenForShunting td) empty t w) ∧
    (∀ t tt, TableOf td t tt → ∃! s, Dict.has d (key2 (.int t) (.str s)) = true) := by
  rw [makeWeights_eq] at h
  obtain ⟨es, hes, h⟩ := bind_ok h
  cases h
  have hmem : ∀ k v, (k, v) ∈ es ↔ ∃ t info tt ty w s, Dict.get? td t = some (info, tt) ∧
      TypeOf info ty ∧ TypeWeight stopping fast express ty w ∧
      LastServed (Dict.get? skip t) tt s ∧ k = key2 (.int t) (.str s) ∧
      v = weightOf (TakenForShunting td) empty t w := by
    intro k v
    rw [mem_collect hes]
    constructor
    · rintro ⟨e, he, a, ha, hin⟩
      obtain ⟨ty, w, s, h1, h2, h3, rfl⟩ := (weightEntry_iff (ho e he)).1 ha
      simp only [List.mem_singleton, Prod.mk.injEq] at hin
      obtain ⟨rfl, rfl⟩ := hin
      exact ⟨e.1, e.2.1, e.2.2, ty, w, s, Dict.get?_of_mem hk he, h1, h2, h3, rfl, rfl⟩
    · rintro ⟨t, info, tt, ty, w, s, hg, h1, h2, h3, rfl, rfl⟩
      have hin := Dict.mem_of_get? hg
      exact ⟨_, hin, _, (weightEntry_iff (ho _ hin)).2 ⟨ty, w, s, h1, h2, h3, rfl⟩, by simp⟩
  have hiff : ∀ k v, Dict.get? (Dict.update [] es) k = some v ↔
      ∃ t info tt ty w s, Dict.get? td t = some (info, tt) ∧
      TypeOf info ty ∧ TypeWeight stopping fast express ty w ∧
      LastServed (Dict.get? skip t) tt s ∧ k = key2 (.int t) (.str s) ∧
      v = weightOf (TakenForShunting td) empty t w := by
    intro k v
    rw [get?_build ?_ k v, hmem]
    intro k v v' h1 h2
    obtain ⟨t, info, tt, ty, w, s, hg, ⟨rest, hi⟩, hw, hl, hk1, rfl⟩ := (hmem _ _).1 h1
    obtain ⟨t', info', tt', ty', w', s', hg', ⟨rest', hi'⟩, hw', hl', hk2, rfl⟩ := (hmem _ _).1 h2
    obtain ⟨rfl, rfl⟩ := C52_intTrains_partial.1 _ _ _ _ (hk1 ▸ hk2)
    rw [hg] at hg'
    cases hg'
    rw [hi] at hi'
    cases hi'
    rw [← typeWeight_iff] at hw hw'
    rw [hw] at hw'
    cases hw'
    rfl
  refine ⟨hiff, ?_⟩
  rintro t tt ⟨info, hg⟩
  have hin := Dict.mem_of_get? hg
  obtain ⟨a, ha, _⟩ := (collect_ok hes).1 _ hin
  obtain ⟨ty, w, s, h1, h2, h3, rfl⟩ := (weightEntry_iff (ho _ hin)).1 ha
  refine ⟨s, ?_, ?_⟩
  · simp only [Dict.has, (hiff _ _).2 ⟨t, info, tt, ty, w, s, hg, h1, h2, h3, rfl, rfl⟩,
      Option.isSome_some]
  · intro s' hs'
    simp only [Dict.has] at hs'
    obtain ⟨v, hv⟩ := Option.isSome_iff_exists.1 hs'
    obtain ⟨t', info', tt', ty', w', s'', hg', _, _, h3', hk', _⟩ := (hiff _ _).1 hv
    obtain ⟨rfl, rfl⟩ := C52_intTrains_partial.1 _ _ _ _ hk'
    rw [hg] at hg'
    cases hg'
    exact h3'.unique (ho _ hin) h3

/-- C40, full statement: one weight per train, at its last served station, by its type, and empty
exactly for the shunting trains. -/
def C40_statement (td : Trains) (skip : Dict Int String) (stopping fast express empty : ℚ)
    (d : Dict String ℚ) : Prop :=
  (∀ k v, Dict.get? d k = some v ↔ ∃ t info tt ty w s, Dict.get? td t = some (info, tt) ∧
    TypeOf info ty ∧ TypeWeight stopping fast express ty w ∧
    LastServed (Dict.get? skip t) tt s ∧ k = key2 (.int t) (.str s) ∧
    v = weightOf (Shunting td) empty t w) ∧
  (∀ t tt, TableOf td t tt → ∃! s, Dict.has d (key2 (.int t) (.str s)) = true)

/-- C40 when every train taken for a shunting train has 9 as its last digit. Missing: the other
cases, for which the statement is false. -/
theorem C40_weights_partial (td : Trains) (hk : (Dict.keys td).Nodup)
    (ho : ∀ e ∈ td, OnceEach e.2.2) (h9 : ∀ t ∈ Dict.keys td, TakenForShunting td t → t % 10 = 9)
    (skip : Dict Int String) (stopping fast express empty : ℚ) (d : Dict String ℚ)
    (h : makeWeights td skip stopping fast express empty = .ok d) :
    C40_statement td skip stopping fast express empty d := by
  obtain ⟨h1, h2⟩ := C40_computed td hk ho skip stopping fast express empty d h
  have hsh : ∀ t ∈ Dict.keys td, TakenForShunting td t ↔ Shunting td t := by
    intro t ht
    constructor
    · intro hts
      have hm := h9 t ht hts
      obtain ⟨n, hn1, hn2, hn3⟩ := hts
      rcases hn3 with hn3 | hn3
      · exact ⟨ht, n, hn1, by omega⟩
      · exact ⟨ht, 10 * n + 9, hn2, by omega⟩
    · rintro ⟨_, n, hn, rfl⟩
      exact ⟨n, hn, ht, .inl (by omega)⟩
  refine ⟨?_, h2⟩
  intro k v
  rw [h1]
  have hw : ∀ t ∈ Dict.keys td, ∀ w, weightOf (TakenForShunting td) empty t w =
      weightOf (Shunting td) empty t w := by
    intro t ht w
    unfold weightOf
    by_cases hs : Shunting td t
    · rw [if_pos hs, if_pos ((hsh t ht).2 hs)]
    · rw [if_neg hs, if_neg (fun h' => hs ((hsh t ht).1 h'))]
  have hkey : ∀ t e, Dict.get? td t = some e → t ∈ Dict.keys td := by
    intro t e hg
    exact (Dict.get?_isSome td t).1 (by rw [hg]; rfl)
  constructor
  · rintro ⟨t, info, tt, ty, w, s, hg, a, b, c, rfl, rfl⟩
    exact ⟨t, info, tt, ty, w, s, hg, a, b, c, rfl, hw t (hkey t _ hg) w⟩
  · rintro ⟨t, info, tt, ty, w, s, hg, a, b, c, rfl, rfl⟩
    exact ⟨t, info, tt, ty, w, s, hg, a, b, c, rfl, (hw t (hkey t _ hg) w).symm⟩

/-- C40: weights are found exactly if every train has a known type and a served station. -/
theorem C40_found (td : Trains) (ho : ∀ e ∈ td, OnceEach e.2.2) (skip : Dict Int String)
    (stopping fast express empty : ℚ) :
    (∃ d, makeWeights td skip stopping fast express empty = .ok d) ↔
      ∀ e ∈ td, ∃ ty w s, TypeOf e.2.1 ty ∧ TypeWeight stopping fast express ty w ∧
        LastServed (Dict.get? skip e.1) e.2.2 s := by
  constructor
  · rintro ⟨d, h⟩ e he
    rw [makeWeights_eq] at h
    obtain ⟨es, hes, h⟩ := bind_ok h
    obtain ⟨a, ha, _⟩ := (collect_ok hes).1 _ he
    obtain ⟨ty, w, s, h1, h2, h3, _⟩ := (weightEntry_iff (ho e he)).1 ha
    exact ⟨ty, w, s, h1, h2, h3⟩
  · intro h
    obtain ⟨es, hes⟩ := collect_succeeds (xs := td)
      (f := weightEntry td skip stopping fast express empty) fun e he => by
      obtain ⟨ty, w, s, h1, h2, h3⟩ := h e he
      exact ⟨_, (weightEntry_iff (ho e he)).2 ⟨ty, w, s, h1, h2, h3, rfl⟩⟩
    exact ⟨_, by rw [makeWeights_eq, hes]; rfl⟩

/-- trains 42, 429 (its shunting train) and 7; the last station of train 7 is skipped -/
def weightTrains : Trains :=
  [(42, (["KS - Os"], [{ path := "a", station := some "A" }, { path := "b", station := some "B" }])),
   (429, (["KS - Os"], [{ path := "b", station := some "B" }, { path := "b2" }])),
   (7, (["IC - IC"], [{ path := "a", station := some "A" }, { path := "b", station := some "B" }]))]

/-- the hypotheses of `C40_weights_partial` -/
example : (Dict.keys weightTrains).Nodup ∧ (∀ e ∈ weightTrains, OnceEach e.2.2) ∧
    (∀ t ∈ Dict.keys weightTrains, TakenForShunting weightTrains t → t % 10 = 9) ∧
    makeWeights weightTrains [(7, "B")] 1 (3/2) (7/4) 0 =
      .ok [("42_B", 1), ("429_B", 0), ("7_A", 3/2)] := by
  refine ⟨by decide +kernel, by unfold OnceEach; decide +kernel, ?_, by decide +kernel⟩
  intro t ht
  have hk : t = 42 ∨ t = 429 ∨ t = 7 := by simpa [Dict.keys, weightTrains] using ht
  rw [← mem_flat_pair9]
  rcases hk with rfl | rfl | rfl <;> decide +kernel

/-- C40 is false of the code: with trains 42 and 429, the train 421 gets the empty weight although
it is no shunting train. -/
theorem C40_false : ∃ td : Trains, (Dict.keys td).Nodup ∧ (∀ e ∈ td, OnceEach e.2.2) ∧
    ∃ d, makeWeights td [] 1 (3/2) (7/4) 0 = .ok d ∧ ¬ C40_statement td [] 1 (3/2) (7/4) 0 d := by
  refine ⟨[(42, (["KS - Os"], [{ path := "a", station := some "A" }])),
    (429, (["KS - Os"], [{ path := "a", station := some "A" }])),
    (421, (["IC - IC"], [{ path := "a", station := some "A" }]))], by decide +kernel,
    by unfold OnceEach; decide +kernel, [("42_A", 1), ("429_A", 0), ("421_A", 0)],
    by decide +kernel, ?_⟩
  rintro ⟨h, _⟩
  obtain ⟨t, info, tt, ty, w, s, hg, ⟨rest, hi⟩, hw, hl, hk, hv⟩ := (h "421_A" 0).1 (by decide +kernel)
  obtain ⟨rfl, rfl⟩ := C52_intTrains_partial.1 421 t "A" s (by rw [← hk]; decide +kernel)
  have hns : ¬ Shunting [(42, (["KS - Os"], [({ path := "a", station := some "A" } : Row)])),
      (429, (["KS - Os"], [{ path := "a", station := some "A" }])),
      (421, (["IC - IC"], [{ path := "a", station := some "A" }]))] 421 := by
    rintro ⟨_, n, _, hn⟩
    omega
  unfold weightOf at hv
  rw [if_neg hns] at hv
  subst hv
  simp only [Dict.get?] at hg
  norm_num at hg
  obtain ⟨rfl, rfl⟩ := hg
  cases hi
  rcases hw with ⟨h, h'⟩ | ⟨h, h'⟩ | ⟨h, h'⟩
  · norm_num at h'
  · norm_num at h'
  · norm_num at h'

end Verif
