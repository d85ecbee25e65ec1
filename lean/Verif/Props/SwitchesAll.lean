import Verif.Props.Switches

/-!
# C32 at the station KO(STM), and for whole numbers stored as `float`
-/

namespace Verif

/-- the movement goes from `KO` to `KO(STM)` or back; such movements are dealt with at `KO` -/
def ToOrFromKO (td : Trains) (t : Int) (p : String) : Prop :=
  (p = "in" ∧ ∃ b, Runs td t "KO" "KO(STM)" b) ∨ (p = "out" ∧ ∃ b, Runs td t "KO(STM)" "KO" b)

/-- the test of the code for such a movement -/
def viaKO (tt : List Row) (p : String) : Prop :=
  (p = "in" ∧ nextStation tt "KO" = some "KO(STM)") ∨
  (p = "out" ∧ nextStation tt "KO(STM)" = some "KO")

theorem mem_if_if {α : Type} {c d e : Prop} [Decidable c] [Decidable d] [Decidable e] {x y : α} :
    x ∈ (if c then if d then [y] else if e then [y] else [] else []) ↔ c ∧ (d ∨ e) ∧ x = y := by
  by_cases c <;> by_cases d <;> by_cases e <;> simp [*]

theorem mem_makeJswitch_all {ttj ttj' : List Row} {s : String} {j j' : Int}
    {i i' o o' : List Int} {x : Dict Int String} :
    x ∈ makeJswitchDict ttj ttj' s j j' i i' o o' ↔ ∃ p p' S S',
      ((p = "in" ∧ S = i) ∨ (p = "out" ∧ S = o)) ∧ ((p' = "in" ∧ S' = i') ∨ (p' = "out" ∧ S' = o')) ∧
      (∃ z, z ∈ S ∧ z ∈ S') ∧ (s = "KO(STM)" → ¬ viaKO ttj p ∧ ¬ viaKO ttj' p') ∧
      x = [(j, p), (j', p')] := by
  unfold makeJswitchDict nonRepeatingPair
  simp only [List.mem_append, mem_if_if, intersects_iff]
  have hin : ∀ tt, viaKO tt "in" ↔ nextStation tt "KO" = some "KO(STM)" := fun tt => by
    simp [viaKO]
  have hout : ∀ tt, viaKO tt "out" ↔ nextStation tt "KO(STM)" = some "KO" := fun tt => by
    simp [viaKO]
  constructor
  · rintro (((⟨h, hc, rfl⟩ | ⟨h, hc, rfl⟩) | ⟨h, hc, rfl⟩) | ⟨h, hc, rfl⟩)
    · refine ⟨_, _, i, i', .inl ⟨rfl, rfl⟩, .inl ⟨rfl, rfl⟩, h, ?_, rfl⟩
      rintro rfl
      rw [hin, hin]; simpa using hc
    · refine ⟨_, _, i, o', .inl ⟨rfl, rfl⟩, .inr ⟨rfl, rfl⟩, h, ?_, rfl⟩
      rintro rfl
      rw [hin, hout]; simpa using hc
    · refine ⟨_, _, o, i', .inr ⟨rfl, rfl⟩, .inl ⟨rfl, rfl⟩, h, ?_, rfl⟩
      rintro rfl
      rw [hin, hout]; simpa using hc
    · refine ⟨_, _, o, o', .inr ⟨rfl, rfl⟩, .inr ⟨rfl, rfl⟩, h, ?_, rfl⟩
      rintro rfl
      rw [hout, hout]; simpa using hc
  · rintro ⟨p, p', S, S', ⟨rfl, rfl⟩ | ⟨rfl, rfl⟩, ⟨rfl, rfl⟩ | ⟨rfl, rfl⟩, h, hc, rfl⟩
    · refine .inl (.inl (.inl ⟨h, ?_, rfl⟩))
      by_cases hs : s = "KO(STM)"
      · subst hs
        have := hc rfl
        rw [hin, hin] at this
        exact .inr this
      · exact .inl hs
    · refine .inl (.inl (.inr ⟨h, ?_, rfl⟩))
      by_cases hs : s = "KO(STM)"
      · subst hs
        have := hc rfl
        rw [hin, hout] at this
        exact .inr this
      · exact .inl hs
    · refine .inl (.inr ⟨h, ?_, rfl⟩)
      by_cases hs : s = "KO(STM)"
      · subst hs
        have := hc rfl
        rw [hin, hout] at this
        exact .inr this
      · exact .inl hs
    · refine .inr ⟨h, ?_, rfl⟩
      by_cases hs : s = "KO(STM)"
      · subst hs
        have := hc rfl
        rw [hout, hout] at this
        exact .inr this
      · exact .inl hs

theorem viaKO_iff {td : Trains} (ho : ∀ e ∈ td, OnceEach e.2.2) {t : Int} {tt : List Row}
    (ht : TableOf td t tt) {p : String} : viaKO tt p ↔ ToOrFromKO td t p := by
  have hn : ∀ s, nextOf td s t = nextStation tt s := by
    obtain ⟨info, h⟩ := ht
    intro s
    simp [nextOf, h]
  unfold viaKO ToOrFromKO
  rw [← hn, ← hn, nextOf_iff ho, nextOf_iff ho]

theorem jswitchPair_spec_all {td : Trains} {st : Stations} {table : List PathRow}
    (hst : WfStations st) (htag : Tagged st td) (hw : WfTrains td) (hf : NoWholeFloat table)
    (hsame : SameCells table) {s : String} (hs2 : s ≠ "KO(IC)") (hs3 : s ≠ "KO(KS)") {j j' : Int}
    {tt tt' : List Row} (ht : TableOf td j tt) (ht' : TableOf td j' tt') (hc : CallsAt st tt s)
    (hc' : CallsAt st tt' s) {v : List (Dict Int String)}
    (h : jswitchPair table st s j j' tt tt' = .ok v) (x : Dict Int String) :
    x ∈ v ↔ ∃ p p' S S', SwitchesAt td table j s p S ∧ SwitchesAt td table j' s p' S' ∧
      (∃ z, z ∈ S ∧ z ∈ S') ∧ (s = "KO(STM)" → ¬ ToOrFromKO td j p ∧ ¬ ToOrFromKO td j' p') ∧
      x = [(j, p), (j', p')] := by
  obtain ⟨info, hm⟩ := ht.mem
  obtain ⟨info', hm'⟩ := ht'.mem
  obtain ⟨r, hr, hrs⟩ := hc
  have hrs := (htag _ hm r hr s).2 hrs
  obtain ⟨r', hr', hrs'⟩ := hc'
  have hrs' := (htag _ hm' r' hr' s).2 hrs'
  unfold jswitchPair at h
  rw [stationBlocks_eq hst (htag _ hm) (hw.once _ hm) hr hrs,
    stationBlocks_eq hst (htag _ hm') (hw.once _ hm') hr' hrs'] at h
  simp only at h
  obtain ⟨b1, hb1, h⟩ := bind_ok h
  cases hb1
  obtain ⟨b2, hb2, h⟩ := bind_ok h
  cases hb2
  obtain ⟨i, hi, h⟩ := bind_ok h
  obtain ⟨o, ho, h⟩ := bind_ok h
  obtain ⟨i', hi', h⟩ := bind_ok h
  obtain ⟨o', ho', h⟩ := bind_ok h
  rw [if_pos (by simp [nonRepeatingSingle, hs2, hs3])] at h
  cases h
  have spec : ∀ {t : Int} {T : List Row} (hT : TableOf td t T) {ri : Row} (hri : ri ∈ T)
      (hris : ri.station = some s) {I O : List Int}
      (hI : zIn table s (trainImportantStations T) [ri.path] (T.map (·.path)) = .ok I)
      (hO : zOut table s (trainImportantStations T) [ri.path] (T.map (·.path)) = .ok O)
      (p : String) (S : List Int),
      SwitchesAt td table t s p S ↔ (p = "in" ∧ S = I) ∨ (p = "out" ∧ S = O) := by
    intro t T hT ri hri hris I O hI hO p S
    obtain ⟨_, hmT⟩ := hT.mem
    have e1 := zIn_spec hf hsame (hw.once _ hmT) (hw.blocks _ hmT) hri hris hI
    have e2 := zOut_spec hf hsame (hw.once _ hmT) (hw.blocks _ hmT) hri hris hO
    constructor
    · rintro ⟨T', hT', ⟨rfl, h⟩ | ⟨rfl, h⟩⟩
      · cases hT.unique hT'
        exact .inl ⟨rfl, (e1 S).1 h⟩
      · cases hT.unique hT'
        exact .inr ⟨rfl, (e2 S).1 h⟩
    · rintro (⟨rfl, h⟩ | ⟨rfl, h⟩)
      · exact ⟨T, hT, .inl ⟨rfl, (e1 S).2 h⟩⟩
      · exact ⟨T, hT, .inr ⟨rfl, (e2 S).2 h⟩⟩
  rw [mem_makeJswitch_all]
  simp only [spec ht hr hrs hi ho, spec ht' hr' hrs' hi' ho', viaKO_iff hw.once ht,
    viaKO_iff hw.once ht']

/-- C32 for all stations but `KO(IC)` and `KO(KS)`, where nothing is listed. At `KO(STM)` the
movements to and from `KO` are left out. -/
theorem C32_stations_partial (td : Trains) (st : Stations) (table : List PathRow)
    (hst : WfStations st) (htag : Tagged st td) (hw : WfTrains td) (hf : NoWholeFloat table)
    (hsame : SameCells table) (imp : Option (List String))
    (d : Dict String (List (Dict Int String))) (h : jswitch td st table imp = .ok d) (s : String)
    (hs : s ∈ chosen st imp) (hsp : s ∉ ["KO(IC)", "KO(KS)"]) :
    ∃ v, Dict.get? d s = some v ∧ (∀ x ∈ v, ∃ j p j' p', j ≠ j' ∧ x = [(j, p), (j', p')]) ∧
      ∀ j p j' p', j ≠ j' → (([(j, p), (j', p')] ∈ v ∨ [(j', p'), (j, p)] ∈ v) ↔
        (s = "KO(STM)" → ¬ ToOrFromKO td j p ∧ ¬ ToOrFromKO td j' p') ∧
        ∃ S S', SwitchesAt td table j s p S ∧ SwitchesAt td table j' s p' S' ∧ ∃ z, z ∈ S ∧ z ∈ S') := by
  have hs2 : s ≠ "KO(IC)" := fun e => hsp (by simp [e])
  have hs3 : s ≠ "KO(KS)" := fun e => hsp (by simp [e])
  obtain ⟨bs, v, hm, hg, hv⟩ := (jswitch_station hst.1.1 h s).2 hs
  refine ⟨v, hg, ?_⟩
  have hiff : ∀ x, x ∈ v ↔ ∃ j j', (j, j') ∈ pairs (trainsAt td false bs) ∧ ∃ p p' S S',
      SwitchesAt td table j s p S ∧ SwitchesAt td table j' s p' S' ∧ (∃ z, z ∈ S ∧ z ∈ S') ∧
      (s = "KO(STM)" → ¬ ToOrFromKO td j p ∧ ¬ ToOrFromKO td j' p') ∧
      x = [(j, p), (j', p')] := by
    intro x
    have hone : ∀ q ∈ pairs (trainsAt td false bs), ∀ a, (do
        let a ← Dict.at! td q.1
        let b ← Dict.at! td q.2
        jswitchPair table st s q.1 q.2 a.2 b.2 : Py (List (Dict Int String))) = .ok a →
        (x ∈ a ↔ ∃ p p' S S', SwitchesAt td table q.1 s p S ∧ SwitchesAt td table q.2 s p' S' ∧
          (∃ z, z ∈ S ∧ z ∈ S') ∧
          (s = "KO(STM)" → ¬ ToOrFromKO td q.1 p ∧ ¬ ToOrFromKO td q.2 p') ∧
          x = [(q.1, p), (q.2, p')]) := by
      rintro ⟨j, j'⟩ hq a ha
      obtain ⟨hj, hj'⟩ := mem_pairs hq
      obtain ⟨tt, ht, hc⟩ := (mem_trainsAt hw.keys).1 hj
      obtain ⟨tt', ht', hc'⟩ := (mem_trainsAt hw.keys).1 hj'
      rw [isAtStation_false] at hc hc'
      have hc := (calls_iff hst.1.1 hm tt).2 hc
      have hc' := (calls_iff hst.1.1 hm tt').2 hc'
      obtain ⟨i1, g1⟩ := ht
      obtain ⟨i2, g2⟩ := ht'
      rw [show Dict.at! td j = .ok (i1, tt) from Dict.at!_ok.2 g1,
        show Dict.at! td j' = .ok (i2, tt') from Dict.at!_ok.2 g2] at ha
      exact jswitchPair_spec_all hst htag hw hf hsame hs2 hs3 ⟨i1, g1⟩ ⟨i2, g2⟩ hc hc' ha x
    rw [mem_collect hv]
    constructor
    · rintro ⟨⟨j, j'⟩, hq, a, ha, hx⟩
      exact ⟨j, j', hq, (hone _ hq a ha).1 hx⟩
    · rintro ⟨j, j', hq, hx⟩
      obtain ⟨a, ha, _⟩ := (collect_ok hv).1 _ hq
      exact ⟨(j, j'), hq, a, ha, (hone _ hq a ha).2 hx⟩
  constructor
  · intro x hx
    obtain ⟨j, j', hq, p, p', _, _, _, _, _, _, rfl⟩ := (hiff x).1 hx
    exact ⟨j, p, j', p', pairs_ne (trainsAt_nodup hw.keys false bs) hq, rfl⟩
  · intro j p j' p' hne
    constructor
    · rintro (hx | hx)
      · obtain ⟨j1, j2, _, p1, p2, S, S', h1, h2, h3, h4, e⟩ := (hiff _).1 hx
        simp only [List.cons.injEq, Prod.mk.injEq, and_true] at e
        obtain ⟨⟨rfl, rfl⟩, rfl, rfl⟩ := e
        exact ⟨h4, S, S', h1, h2, h3⟩
      · obtain ⟨j1, j2, _, p1, p2, S, S', h1, h2, ⟨z, hz, hz'⟩, h4, e⟩ := (hiff _).1 hx
        simp only [List.cons.injEq, Prod.mk.injEq, and_true] at e
        obtain ⟨⟨rfl, rfl⟩, rfl, rfl⟩ := e
        exact ⟨fun e => (h4 e).symm, S', S, h2, h1, z, hz', hz⟩
    · rintro ⟨h4, S, S', h1, h2, z, hz, hz'⟩
      have mem : ∀ {t : Int} {p : String} {S : List Int}, SwitchesAt td table t s p S →
          t ∈ trainsAt td false bs := by
        intro t p S hS
        obtain ⟨tt, ht, hc⟩ := switchesAt_calls htag hS
        exact (mem_trainsAt hw.keys).2 ⟨tt, ht, isAtStation_false.2 ((calls_iff hst.1.1 hm tt).1 hc)⟩
      rcases pairs_of_mem (mem h1) (mem h2) hne with hq | hq
      · exact .inl ((hiff _).2 ⟨j, j', hq, p, p', S, S', h1, h2, ⟨z, hz, hz'⟩, h4, rfl⟩)
      · exact .inr ((hiff _).2 ⟨j', j, hq, p', p, S', S, h2, h1, ⟨z, hz', hz⟩, fun e => (h4 e).symm,
          rfl⟩)

/-! ## Whole numbers stored as `float` -/

/-- the cell with the zero that the code reads -/
def withZero : SwitchCell → SwitchCell
  | .float a 0 => .textTuple [(a : Int), 0]
  | c => c

/-- the table with the zeros that the code reads -/
def zeros (table : List PathRow) : List PathRow :=
  table.map fun r => { r with switches := withZero r.switches }

theorem evalSwitch_withZero (c : SwitchCell) : evalSwitch (withZero c) = evalSwitch c := by
  unfold withZero
  split <;> rfl

theorem zeros_noWhole (table : List PathRow) : NoWholeFloat (zeros table) := by
  rintro row hr a
  obtain ⟨r, -, rfl⟩ := List.mem_map.1 hr
  simp only
  unfold withZero
  split
  · simp
  · rename_i h
    exact fun e => h a e

theorem label_map {α β : Type} (f : α → β) (xs : List α) (i : Nat) :
    label (xs.map f) (i : Int) = (label xs (i : Int)).map f := by
  unfold label
  rw [if_neg (by omega), if_neg (by omega)]
  simp only [Int.toNat_natCast, List.getElem?_map]
  cases xs[i]? <;> rfl

theorem switchesBetween_zeros (table : List PathRow) (a b : String) :
    switchesBetween (zeros table) a b = switchesBetween table a b := by
  unfold switchesBetween blockIndices
  have h1 : (zeros table).map (·.prev) = table.map (·.prev) := by simp [zeros]
  have h2 : (zeros table).map (·.next) = table.map (·.next) := by simp [zeros]
  simp only [h1, h2]
  congr 1
  funext _ i
  rw [zeros, label_map]
  cases label table (i : Int) with
  | error e => rfl
  | ok r => exact evalSwitch_withZero _

theorem jswitch_zeros (td : Trains) (st : Stations) (table : List PathRow)
    (imp : Option (List String)) : jswitch td st (zeros table) imp = jswitch td st table imp := by
  have hz : ∀ s a b c, zIn (zeros table) s a b c = zIn table s a b c := by
    intro s a b c; unfold zIn; simp only [switchesBetween_zeros]
  have ho : ∀ s a b c, zOut (zeros table) s a b c = zOut table s a b c := by
    intro s a b c; unfold zOut; simp only [switchesBetween_zeros]
  unfold jswitch jswitchPair
  simp only [hz, ho]

theorem sameCells_zeros {table : List PathRow} (h : SameCells table) : SameCells (zeros table) := by
  intro row hrow row' hrow' a b hj hj'
  obtain ⟨r, hr, rfl⟩ := List.mem_map.1 hrow
  obtain ⟨r', hr', rfl⟩ := List.mem_map.1 hrow'
  simp only
  rw [h r hr r' hr' a b hj hj']

theorem switchesOf_zeros {table : List PathRow} {a b : String} {S : List Int}
    (h : SwitchesOf table a b S) : ∃ S', SwitchesOf (zeros table) a b S' ∧ ∀ z ∈ S, z ∈ S' := by
  rcases h with ⟨h1, rfl⟩ | ⟨row, hr, hj, hc⟩
  · refine ⟨[], .inl ⟨?_, rfl⟩, by simp⟩
    intro row hrow hj
    obtain ⟨r, hr, rfl⟩ := List.mem_map.1 hrow
    exact h1 r hr hj
  · have hm : ({ row with switches := withZero row.switches } : PathRow) ∈ zeros table :=
      List.mem_map.2 ⟨row, hr, rfl⟩
    by_cases hw : ∃ n, row.switches = .float n 0
    · obtain ⟨n, hw⟩ := hw
      rw [hw] at hc
      refine ⟨[(n : Int), 0], .inr ⟨_, hm, hj, ?_⟩, ?_⟩
      · simp only [hw, withZero, CellSwitches]
      · simp only [CellSwitches, if_true] at hc
        simp [hc]
    · refine ⟨S, .inr ⟨_, hm, hj, ?_⟩, fun z hz => hz⟩
      have : withZero row.switches = row.switches := by
        unfold withZero
        split
        · rename_i n h; exact absurd ⟨n, h⟩ hw
        · rfl
      simp only [this]
      exact hc

theorem switchesAt_zeros {td : Trains} {table : List PathRow} {t : Int} {s p : String}
    {S : List Int} (h : SwitchesAt td table t s p S) :
    ∃ S', SwitchesAt td (zeros table) t s p S' ∧ ∀ z ∈ S, z ∈ S' := by
  obtain ⟨tt, ht, ⟨hp, pre, r, post, e, hs, h⟩ | ⟨hp, pre, r, post, e, hs, h⟩⟩ := h
  · rcases h with ⟨h, rfl⟩ | ⟨h, pre', r0, e0, h1⟩
    · exact ⟨[], ⟨tt, ht, .inl ⟨hp, pre, r, post, e, hs, .inl ⟨h, rfl⟩⟩⟩, by simp⟩
    · obtain ⟨S', h2, h3⟩ := switchesOf_zeros h1
      exact ⟨S', ⟨tt, ht, .inl ⟨hp, pre, r, post, e, hs, .inr ⟨h, pre', r0, e0, h2⟩⟩⟩, h3⟩
  · rcases h with ⟨h, rfl⟩ | ⟨h, r1, post', e0, h1⟩
    · exact ⟨[], ⟨tt, ht, .inr ⟨hp, pre, r, post, e, hs, .inl ⟨h, rfl⟩⟩⟩, by simp⟩
    · obtain ⟨S', h2, h3⟩ := switchesOf_zeros h1
      exact ⟨S', ⟨tt, ht, .inr ⟨hp, pre, r, post, e, hs, .inr ⟨h, r1, post', e0, h2⟩⟩⟩, h3⟩

/-- C32, one direction, for all readable tables: every two trains with a common switch are listed
(not at `KO(IC)`, `KO(KS)`; and at `KO(STM)` not movements to and from `KO`). -/
theorem C32_complete (td : Trains) (st : Stations) (table : List PathRow)
    (hst : WfStations st) (htag : Tagged st td) (hw : WfTrains td)
    (hsame : SameCells table) (imp : Option (List String))
    (d : Dict String (List (Dict Int String))) (h : jswitch td st table imp = .ok d) (s : String)
    (hs : s ∈ chosen st imp) (hsp : s ∉ ["KO(IC)", "KO(KS)"]) :
    ∃ v, Dict.get? d s = some v ∧
      ∀ j p j' p' S S' z, j ≠ j' → SwitchesAt td table j s p S → SwitchesAt td table j' s p' S' →
        z ∈ S → z ∈ S' → (s = "KO(STM)" → ¬ ToOrFromKO td j p ∧ ¬ ToOrFromKO td j' p') →
        [(j, p), (j', p')] ∈ v ∨ [(j', p'), (j, p)] ∈ v := by
  obtain ⟨v, hv, -, hall⟩ := C32_stations_partial td st (zeros table) hst htag hw
    (zeros_noWhole table) (sameCells_zeros hsame) imp d (by rw [jswitch_zeros]; exact h) s hs hsp
  refine ⟨v, hv, ?_⟩
  intro j p j' p' S S' z hne h1 h2 hz hz' hko
  obtain ⟨T, hT, hsub⟩ := switchesAt_zeros h1
  obtain ⟨T', hT', hsub'⟩ := switchesAt_zeros h2
  exact (hall j p j' p' hne).2 ⟨hko, T, T', hT, hT', z, hsub z hz, hsub' z hz'⟩

/-! ## Examples -/

/-- Three trains into `KO(STM)` over switch 3. Train 2 comes from `KO`. -/
def koTrains : Trains :=
  [(1, ([], [{ path := "a", station := some "A" }, { path := "l1" },
     { path := "m1", station := some "KO(STM)" }])),
   (2, ([], [{ path := "k", station := some "KO" }, { path := "l2" },
     { path := "m2", station := some "KO(STM)" }])),
   (3, ([], [{ path := "a", station := some "A" }, { path := "l1" },
     { path := "m2", station := some "KO(STM)" }]))]

def koStations : Stations := [("A", ["a"]), ("KO", ["k"]), ("KO(STM)", ["m1", "m2"])]

/-- the first cell is the number 3 stored as `float` -/
def koTable : List PathRow :=
  [{ prev := "l1", next := "m1", switches := .float 3 0 },
   { prev := "l1", next := "m2", switches := .textInt 3 },
   { prev := "m2", next := "l2", switches := .textTuple [3, 5] }]

theorem koStations_wf : WfStations koStations :=
  wfStations_of_check (by decide +kernel) (by decide +kernel)

set_option synthInstance.maxSize 1000 in
/-- the hypotheses of `C32_complete` and what is computed: the trains 1 and 3 are listed at `KO(STM)`,
train 2 is not -/
example : WfStations koStations ∧ Tagged koStations koTrains ∧ WfTrains koTrains ∧
    SameCells koTable ∧ ¬ NoWholeFloat koTable ∧
    jswitch koTrains koStations koTable none =
      .ok [("A", []), ("KO", []), ("KO(STM)", [[(1, "in"), (3, "in")]])] ∧
    SwitchesAt koTrains koTable 1 "KO(STM)" "in" [3] ∧
    SwitchesAt koTrains koTable 3 "KO(STM)" "in" [3] ∧
    ToOrFromKO koTrains 2 "in" := by
  let e1 : PathRow := { prev := "l1", next := "m1", switches := .float 3 0 }
  let e2 : PathRow := { prev := "l1", next := "m2", switches := .textInt 3 }
  refine ⟨koStations_wf, tagged_of_check koStations_wf.1 (by decide +kernel),
    ⟨by decide +kernel, by unfold OnceEach; decide +kernel, by unfold BlocksOnce; decide +kernel⟩,
    sameCells_of_check (by decide +kernel),
    fun h => h _ List.mem_cons_self 3 rfl, by decide +kernel,
    ⟨_, ⟨_, rfl⟩, .inl ⟨rfl, [_, _], _, _, rfl, rfl, .inr ⟨⟨_, List.mem_cons_self, by simp⟩,
      [_], _, rfl, .inr ⟨e1, by simp [koTable, e1], .inl ⟨rfl, rfl⟩, rfl⟩⟩⟩⟩,
    ⟨_, ⟨_, rfl⟩, .inl ⟨rfl, [_, _], _, _, rfl, rfl, .inr ⟨⟨_, List.mem_cons_self, by simp⟩,
      [_], _, rfl, .inr ⟨e2, by simp [koTable, e2], .inl ⟨rfl, rfl⟩, rfl⟩⟩⟩⟩,
    .inl ⟨rfl, ["l2"], _, [_], ⟨_, rfl⟩, ⟨[], _, _, _, rfl, rfl, rfl, by simp⟩, rfl⟩⟩

set_option synthInstance.maxSize 1000 in
/-- the hypotheses of `C32_stations_partial`, for the table with text instead of the `float` -/
example : NoWholeFloat (zeros koTable) ∧ SameCells (zeros koTable) ∧
    "KO(STM)" ∈ chosen koStations none ∧ "KO(STM)" ∉ ["KO(IC)", "KO(KS)"] ∧
    jswitch koTrains koStations (zeros koTable) none =
      .ok [("A", []), ("KO", []), ("KO(STM)", [[(1, "in"), (3, "in")]])] :=
  ⟨zeros_noWhole _, sameCells_of_check (by decide +kernel), by decide +kernel, by decide,
    by decide +kernel⟩

/-! ## Trains without a block of the station -/

/-- C32: asked for a train none of whose blocks is the one of the station, `z_in` and `z_out` raise
`UnboundLocalError` -/
theorem C32_unbound (table : List PathRow) (s b : String) (sts rest blocks : List String)
    (hb : b ∉ blocks) : zIn table s sts (b :: rest) blocks = .error .unboundLocal ∧
      zOut table s sts (b :: rest) blocks = .error .unboundLocal := by
  have key : ∀ (f : ZState → String × Nat → Py ZState) (l : List (String × Nat)),
      (∀ e ∈ l, f (.running none) e = .ok (.running none)) →
      loop l f (.running none) = .ok (.running none) := by
    intro f l
    induction l with
    | nil => exact fun _ => rfl
    | cons e l ih =>
      intro h
      rw [loop, h e List.mem_cons_self]
      exact ih fun e he => h e (List.mem_cons_of_mem _ he)
  have hne : ∀ e ∈ blocks.zipIdx, e.1 ≠ b := by
    rintro e he rfl
    exact hb (List.fst_mem_of_mem_zipIdx he)
  constructor
  · unfold zIn
    rw [key _ _ fun e he => by simp [nth, hne e he, bind, Except.bind]]
    rfl
  · unfold zOut
    rw [key _ _ fun e he => by simp [nth, hne e he, bind, Except.bind]]
    rfl

example : zIn [] "A" ["A"] ["a"] ["b", "c"] = .error .unboundLocal := by decide +kernel

end Verif
