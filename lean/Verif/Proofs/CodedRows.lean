import Verif.Proofs.CodedSafe

/-!
# The rows of coded sheets, with passing times and stations
-/

namespace Verif

namespace CodedNet

variable (N : CodedNet)

/-- a row with the number of its block and the passing time -/
structure CRow where
  block : Nat
  raw : RawRow
  pass : Option ℚ

/-- the passing time between two blocks -/
def passOf (a b : Nat) (speed : Option String) : Option ℚ :=
  match N.table.find? fun x => joins x a b with
  | none => none
  | some x =>
    if speed = some "R" then (if Nat.beq x.1 a then x.2.2.rAB else x.2.2.rBA)
    else (if Nat.beq x.1 a then x.2.2.icAB else x.2.2.icBA)

/-- the rows with passing times -/
def crows : List (Nat × RawRow) → List CRow
  | [] => []
  | [x] => [⟨x.1, x.2, none⟩]
  | x :: y :: l => ⟨x.1, x.2, N.passOf x.1 y.1 x.2.speed⟩ :: crows (y :: l)

/-- the name of the station with position `i` -/
def stName (i : Nat) : Option String := N.stations[i]?.map Prod.fst

/-- the station of a block -/
def station (b : Nat) : Option String := (N.stIx b).bind N.stName

/-- the row as it is in the timetables -/
def tag (x : CRow) : Row :=
  { N.row (x.block, x.raw) with passingTime := x.pass, station := N.station x.block }

variable {N} {good : List (Nat × Nat)} {R : List (Nat × Nat × List Nat)} {cs : List CodedSection}
  {td : Trains} {t1 : String}

theorem crows_length (l : List (Nat × RawRow)) : (N.crows l).length = l.length := by
  induction l with
  | nil => rfl
  | cons x l ih =>
    cases l with
    | nil => rfl
    | cons y l => simp only [crows, List.length_cons, ih]

theorem crows_getElem? (l : List (Nat × RawRow)) (i : Nat) :
    (N.crows l)[i]? = l[i]?.map fun x =>
      ⟨x.1, x.2, l[i + 1]?.bind fun y => N.passOf x.1 y.1 x.2.speed⟩ := by
  induction l generalizing i with
  | nil => rfl
  | cons x l ih =>
    cases l with
    | nil => cases i <;> rfl
    | cons y l =>
      cases i with
      | zero => rfl
      | succ i => simpa only [crows, List.getElem?_cons_succ] using ih i

theorem stName_some {i : Nat} {x : String} :
    N.stName i = some x ↔ ∃ e, N.stations[i]? = some e ∧ e.1 = x := by
  unfold stName
  rw [Option.map_eq_some_iff]

theorem stName_inj (W : N.NetOK good) {i j : Nat} {x : String} (hi : N.stName i = some x)
    (hj : N.stName j = some x) : i = j := by
  obtain ⟨e, he, h1⟩ := stName_some.1 hi
  obtain ⟨e', he', h2⟩ := stName_some.1 hj
  exact station_pos W he he' (h1.trans h2.symm)

theorem station_some (W : N.NetOK good) {b : Nat} {x : String} :
    N.station b = some x ↔ BelongsTo N.stationTable (nameOf N.names b) x := by
  unfold station
  rw [Option.bind_eq_some_iff]
  constructor
  · rintro ⟨i, hi, h⟩
    obtain ⟨e, he, h1⟩ := stName_some.1 h
    obtain ⟨e', he', hb⟩ := stIx_spec hi
    rw [he] at he'
    cases he'
    exact (belongs_coded W.names).2 ⟨e, List.mem_of_getElem? he, h1, hb⟩
  · intro h
    obtain ⟨i, e, h1, h2, h3⟩ := stIx_belongs W h
    exact ⟨i, h3, stName_some.2 ⟨e, h1, h2⟩⟩

theorem station_name {b i : Nat} (h : N.stIx b = some i) :
    ∃ x, N.stName i = some x ∧ N.station b = some x := by
  obtain ⟨e, he, -⟩ := stIx_spec h
  have : N.stName i = some e.1 := stName_some.2 ⟨e, he, rfl⟩
  exact ⟨e.1, this, by unfold station; rw [h]; exact this⟩

theorem stIx_of_station {b : Nat} {x : String} (h : N.station b = some x) :
    ∃ i, N.stIx b = some i ∧ N.stName i = some x := by
  unfold station at h
  exact Option.bind_eq_some_iff.1 h

/-- no row of the path table joins a block with itself -/
def NoLoop (N : CodedNet) : Prop := ∀ x ∈ N.table, x.1 ≠ x.2.1

theorem rowTime_coded (hn : BlockNames N.names) (T : N.TableOK) (hl : N.NoLoop) {a b : Nat}
    {speed : Option String} {v : Option ℚ}
    (h : C44_statement N.pathTable (nameOf N.names a) (nameOf N.names b) speed v) :
    v = N.passOf a b speed := by
  obtain ⟨row, hrow, ht⟩ := h
  obtain ⟨x, hx, rfl⟩ := List.mem_map.1 hrow
  have hj : joins x a b = true := by
    rw [joins_iff hn]
    rcases ht with ⟨h1, h2, -⟩ | ⟨h1, h2, -⟩
    · exact .inl ⟨h1, h2⟩
    · exact .inr ⟨h1, h2⟩
  have hf : N.table.find? (fun x => joins x a b) = some x := by
    cases hf : N.table.find? fun x => joins x a b with
    | none =>
      rw [List.find?_eq_none] at hf
      exact absurd hj (hf x hx)
    | some y =>
      have hy := List.find?_some hf
      have hym := List.mem_of_find?_eq_some hf
      have := pairsOK_same T.pairs x hx y hym (by
        unfold joins at hj hy ⊢
        simp only [Bool.or_eq_true, Bool.and_eq_true, Nat.beq_eq] at hj hy ⊢
        omega)
      rw [this]
  unfold passOf
  rw [hf]
  simp only
  have hne := hl x hx
  rcases ht with ⟨h1, h2, h3⟩ | ⟨h1, h2, h3⟩
  · have e1 : x.1 = a := hn.inj h1
    have : Nat.beq x.1 a = true := by rw [Nat.beq_eq]; exact e1
    rw [if_pos this, if_pos this]
    rcases h3 with ⟨rfl, rfl⟩ | ⟨rfl, rfl⟩
    · rw [if_pos rfl]
    · rw [if_neg (by simp)]
  · have e1 : x.1 = b := hn.inj h1
    have e2 : x.2.1 = a := hn.inj h2
    have : ¬ Nat.beq x.1 a = true := by
      rw [Nat.beq_eq]
      intro e
      exact hne (e.trans e2.symm)
    rw [if_neg this, if_neg this]
    rcases h3 with ⟨rfl, rfl⟩ | ⟨rfl, rfl⟩
    · rw [if_pos rfl]
    · rw [if_neg (by simp)]

/-- `td` is made of the coded sections -/
structure Coded (N : CodedNet) (cs : List CodedSection) (td : Trains) : Prop where
  keys : Dict.keys td = cs.map fun c => (c.number : Int)
  numbers : (cs.map fun c => (c.number : Int)).Nodup
  table : ∀ t rows, TableOf td t rows → ∃ c ∈ cs, t = (c.number : Int) ∧
    rows = (N.crows c.rows).map N.tag

theorem Coded.of_section (C : N.Coded cs td) {c : CodedSection} (hc : c ∈ cs) :
    TableOf td c.number ((N.crows c.rows).map N.tag) := by
  have : (c.number : Int) ∈ Dict.keys td := by rw [C.keys]; exact List.mem_map.2 ⟨c, hc, rfl⟩
  obtain ⟨e, he, e1⟩ := List.mem_map.1 this
  have ht := TableOf.of_mem (by rw [C.keys]; exact C.numbers) he
  obtain ⟨c', hc', h1, h2⟩ := C.table _ _ ht
  rw [e1] at ht h1
  have : c = c' := List.inj_on_of_nodup_map C.numbers hc hc' h1
  subst this
  rw [h2] at ht
  exact ht

/-- the timetables of the train of a section -/
theorem Coded.rows (C : N.Coded cs td) {c : CodedSection} (hc : c ∈ cs) {rows : List Row}
    (h : TableOf td c.number rows) : rows = (N.crows c.rows).map N.tag :=
  h.unique (C.of_section hc)

theorem coded_of_checks (W : N.NetOK good) (S : N.SheetOK good R cs) (T : N.TableOK)
    (hl : N.NoLoop)
    (h : updateAllTimetables N.pathTable N.stationTable
      ((cs.map N.sec).map fun s => (s.train, (s.info, s.rows))) = .ok td)
    (L : LoadedFrom (cs.map N.sec) N.stationTable td) : N.Coded cs td := by
  have hnum : ∀ c ∈ cs, (N.sec c).train = (c.number : Int) := fun c hc =>
    (secFacts (S.sections c hc)).train
  have hkeys : (cs.map N.sec).map Section.train = cs.map fun c => (c.number : Int) := by
    rw [List.map_map]
    exact List.map_congr_left hnum
  refine ⟨by rw [L.keys, hkeys], by rw [← hkeys]; exact L.numbers, ?_⟩
  intro t rows ht
  obtain ⟨info, hm⟩ := ht.mem
  obtain ⟨e0, he0, h1, h2, h3⟩ := forall₂_right (updateAll_forall₂ h) hm
  obtain ⟨s, hs, rfl⟩ := List.mem_map.1 he0
  obtain ⟨c, hc, rfl⟩ := List.mem_map.1 hs
  refine ⟨c, hc, by rw [← hnum c hc]; exact h1, ?_⟩
  simp only at h3
  obtain ⟨q1, q2, ts, q3, q4⟩ := updateTimetable_rows h3
  have hraw : rows.map (·.toRawRow) = c.rows.map N.row := q1
  have hlen : rows.length = c.rows.length := by
    have := congrArg List.length hraw
    simpa using this
  have hst : ∀ i : Nat, ∀ q : Row, ∀ x : Nat × RawRow, rows[i]? = some q → c.rows[i]? = some x →
      q.toRawRow = N.row x := by
    intro i q x hq hx
    have := congrArg (·[i]?) hraw
    simp only [List.getElem?_map, hq, hx, Option.map_some, Option.some.injEq] at this
    exact this
  apply List.ext_getElem?
  intro i
  rw [List.getElem?_map, crows_getElem?, Option.map_map]
  cases hx : c.rows[i]? with
  | none =>
    rw [List.getElem?_eq_none_iff] at hx
    rw [Option.map_none, List.getElem?_eq_none_iff]
    omega
  | some x =>
    have hi : i < c.rows.length := (List.getElem?_eq_some_iff.1 hx).1
    obtain ⟨q, hq⟩ : ∃ q, rows[i]? = some q := ⟨_, List.getElem?_eq_getElem (by omega)⟩
    have hqx := hst i q x hq hx
    have hne : (N.sec c).rows ≠ [] := by
      intro e
      have := congrArg List.length e
      simp only [CodedNet.sec, List.length_map, List.length_nil] at this
      omega
    have hts := q4 hne
    rw [hq, Option.map_some]
    have hpt : q.passingTime = c.rows[i + 1]?.bind fun y => N.passOf x.1 y.1 x.2.speed := by
      obtain ⟨p1, p2, p3⟩ := C44_passing_partial N.pathTable (N.sec c).rows ts hne
        (by
          intro r hr e
          obtain ⟨y, hy, rfl⟩ := List.mem_map.1 hr
          exact hl y hy (W.names.inj e))
        (by
          rintro r hr r' hr' ⟨e1, e2⟩
          obtain ⟨y, hy, rfl⟩ := List.mem_map.1 hr
          obtain ⟨y', hy', rfl⟩ := List.mem_map.1 hr'
          have e1 := W.names.inj e1
          have e2 := W.names.inj e2
          have := pairsOK_same T.pairs y hy y' hy' (by
            unfold joins
            simp only [Bool.or_eq_true, Bool.and_eq_true, Nat.beq_eq]
            omega)
          subst this
          exact hl y hy e1) q3
      have hqt : ts[i]? = some q.passingTime := by
        rw [← hts, List.getElem?_map, hq]
        rfl
      cases hy : c.rows[i + 1]? with
      | some y =>
        obtain ⟨v, hv, hc44⟩ := p3 i (N.row x) (N.row y)
          (by simp [CodedNet.sec, List.getElem?_map, hx]) (by simp [CodedNet.sec, List.getElem?_map, hy])
        rw [hqt] at hv
        cases hv
        exact rowTime_coded W.names T hl hc44
      | none =>
        rw [List.getElem?_eq_none_iff] at hy
        have : ts.length = i + 1 := by
          rw [p1]
          simp only [CodedNet.sec, List.length_map]
          omega
        rw [List.getLast?_eq_getElem?, this, Nat.add_sub_cancel, hqt] at p2
        simpa using p2
    have hs : q.station = N.station x.1 := by
      apply Option.ext
      intro y
      rw [station_some W, L.station ht (List.mem_of_getElem? hq)]
      show BelongsTo _ q.toRawRow.path y ↔ _
      rw [hqx]
      rfl
    simp only [Function.comp_apply, Option.some.injEq]
    obtain ⟨raw, pt, s⟩ := q
    simp only at hqx hpt hs
    subst hqx hpt hs
    rfl

end CodedNet

end Verif
