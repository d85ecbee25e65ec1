import Verif.Proofs.PlanVisits

/-!
# Plans for coded sheets: earliest departures, switches, rolling stock
-/

namespace Verif

namespace CodedNet

variable {N : CodedNet} {good : List (Nat × Nat)} {td : Trains} {t1 : String}
  {delays : List (Int × ℚ)} {dmax : Int} {sp : Special} {P : Plan}

theorem has_iff {l : List Nat} {a : Nat} : has l a = true ↔ a ∈ l := any_beq

theorem hasPair_iff {l : List (Nat × Nat)} {a b : Nat} : hasPair l a b = true ↔ (a, b) ∈ l := by
  unfold hasPair
  simp only [List.any_eq_true, Bool.and_eq_true, Nat.beq_eq]
  constructor
  · rintro ⟨x, hx, rfl, rfl⟩
    exact hx
  · intro h
    exact ⟨_, h, rfl, rfl⟩

theorem hasInt_iff {l : List Int} {a : Int} : hasInt l a = true ↔ a ∈ l := by
  unfold hasInt
  simp

theorem common_iff {l l' : List Int} : common l l' = true ↔ ∃ z, z ∈ l ∧ z ∈ l' := by
  unfold common
  simp only [List.any_eq_true, hasInt_iff]

section
variable {t t' : Int} {x x' p : String} {k k' : Nat} {c c' : CodedSection} {its its' : List Item}
  {pre pre' post post' : List CRow} {r r' : CRow} {i i' : Nat} {a a' b : Item}

/-- the parts of the check of an item -/
structure RowFacts (N : CodedNet) (dmax : Int) (sp : Special) (c : CodedSection) (i : Nat) (r : CRow)
    (post : List CRow) (a : Item) : Prop where
  tenth : isTenths r.pass = true
  track : a.track = some r.block ∨ i ∈ sp.quiet ∨ r.block ∈ sp.leftOut
  go : a.go = true ↔ post ≠ []
  free : a.free = true → ∃ j, N.lastStation c = some j ∧ (i, j) ∈ sp.within
  late : a.go = true → a.early ≤ a.dep ∧ a.dep ≤ a.early + dmax
  out : ∀ r1 post', post = r1 :: post' → (∀ x ∈ post, N.inSt x.block = false) ∨ i ∈ sp.quiet ∨
    (i ∈ sp.stm ∧ ∃ y j, post.find? (fun x => N.inSt x.block) = some y ∧ N.stIx y.block = some j ∧
      j ∈ sp.ko) ∨ ∀ z ∈ N.switchesOf r.block r1.block, z ∈ a.outS

theorem Visit.facts (V : Visit N t1 delays dmax sp P t x k c its pre r post i a) :
    RowFacts N dmax sp c i r post a := by
  have h := V.ok
  unfold rowOK at h
  simp only [Bool.and_eq_true] at h
  obtain ⟨⟨⟨⟨⟨⟨h1, h2⟩, h3⟩, h4⟩, h5⟩, h6⟩, -⟩ := h
  refine ⟨h1, ?_, ?_, ?_, ?_, ?_⟩
  · split at h2
    · rename_i b hb
      rw [Nat.beq_eq] at h2
      exact .inl (by rw [hb, h2])
    · simp only [Bool.or_eq_true, has_iff] at h2
      exact .inr h2
  · rw [beq_iff_eq] at h3
    rw [h3]
    simp
  · intro hf
    rw [hf] at h4
    simp only [Bool.not_true, Bool.false_or] at h4
    split at h4
    · rename_i j hj
      exact ⟨j, hj, hasPair_iff.1 h4⟩
    · cases h4
  · intro hg
    rw [hg] at h5
    simpa using h5
  · rintro r1 post' rfl
    simp only [Bool.or_eq_true, List.all_eq_true, Bool.not_eq_true', has_iff, Bool.and_eq_true,
      hasInt_iff] at h6
    rcases h6 with ((h6 | h6) | ⟨h6, h7⟩) | h6
    · exact .inl h6
    · exact .inr (.inl h6)
    · refine .inr (.inr (.inl ⟨h6, ?_⟩))
      split at h7
      · rename_i y hy
        split at h7
        · rename_i j hj
          exact ⟨y, j, hy, hj, has_iff.1 h7⟩
        · cases h7
      · cases h7
    · exact .inr (.inr (.inr h6))

/-! ## Earliest departures -/

theorem Visit.row_unique (K : Planned N good td t1 delays dmax sp P)
    (V : Visit N t1 delays dmax sp P t x k c its pre r post i a) {rows : List Row}
    (ht : TableOf td t rows) {q : Row} (hq : q ∈ rows) (hs : q.station = some x) : q = N.tag r := by
  have e := ht.unique (V.table K)
  subst e
  exact once_unique (K.once ht) hq (by simp) hs V.station

theorem Visit.later (K : Planned N good td t1 delays dmax sp P)
    (V : Visit N t1 delays dmax sp P t x k c its pre r post i a) {rows : List Row}
    (ht : TableOf td t rows) {u e : ℚ} (h : Later rows t1 x u e) :
    laterOf t1 r.raw.dep u = some e := by
  have ee := ht.unique (V.table K)
  unfold laterOf
  rcases h with ⟨dep, v, ⟨A, row, B, hAB, h1, h2, -⟩, h3, rfl⟩ | ⟨h1, rfl⟩
  · have : row = N.tag r := V.row_unique K ht (by rw [hAB]; simp) h1
    subst this
    have h2 : r.raw.dep = some dep := h2
    rw [h2]
    simp only
    rw [calcTimeDiff_iff.2 h3]
  · have : r.raw.dep = none := by
      cases hd : r.raw.dep with
      | none => rfl
      | some d =>
        exfalso
        refine h1 d ⟨pre.map N.tag, N.tag r, post.map N.tag, ee, V.station, hd, ?_⟩
        intro q hq hs
        have h2 := V.row_unique K ht (by rw [ee]; exact List.mem_append_left _ hq) hs
        have hon := K.once ht
        rw [ee] at hon
        unfold OnceEach at hon
        rw [List.filterMap_append, List.nodup_append] at hon
        exact absurd rfl (hon.2.2 x (List.mem_filterMap.2 ⟨q, hq, hs⟩) x
          (List.mem_filterMap.2 ⟨N.tag r, List.mem_cons_self, V.station⟩))
    rw [this]

theorem Visit.first (K : Planned N good td t1 delays dmax sp P)
    (V : Visit N t1 delays dmax sp P t x k c its pre r post i a) {rows : List Row}
    (ht : TableOf td t rows) {row : Row} (h : FirstStation rows x row) :
    row = N.tag r ∧ N.lastSt pre = none ∧ a.prev = none := by
  obtain ⟨A, B, hAB, h1, h2⟩ := h
  have ee := ht.unique (V.table K)
  obtain ⟨e1, e2, e3⟩ := once_split (K.once ht) hAB ee h1 V.station
  have hn : N.lastSt pre = none := by
    refine lastSt_of_none fun q hq => ?_
    rw [← tag_station_none]
    exact h2 _ (by rw [e1]; exact List.mem_map_of_mem hq)
  refine ⟨e2, hn, ?_⟩
  have := V.prevOK
  unfold CodedNet.prevOK at this
  rw [hn] at this
  simp only [Bool.and_eq_true, Option.isNone_iff_eq_none] at this
  exact this.1

theorem initial_of {row : CRow} {v : ℚ} (h : InitialTime t1 (N.tag row) v) :
    initialOf t1 row.raw = some v := by
  unfold initialOf
  rcases h with ⟨d, h1, h2⟩ | ⟨h1, d, h2, h3⟩ | ⟨h1, h2, rfl⟩
  · have h1 : row.raw.dep = some d := h1
    rw [h1]
    simp only
    rw [calcTimeDiff_iff.2 h2]
  · have h1 : row.raw.dep = none := h1
    have h2 : row.raw.approxEnter = some d := h2
    rw [h1, h2]
    simp only
    rw [calcTimeDiff_iff.2 h3]
  · have h1 : row.raw.dep = none := h1
    have h2 : row.raw.approxEnter = none := h2
    rw [h1, h2]

/-- the earliest departures of the items are those of the tables -/
theorem Visit.early (K : Planned N good td t1 delays dmax sp P) {rows : List Row}
    (ht : TableOf td t rows) {e : ℚ} (h : Earliest rows t1 1 (addedDelay delays t) x e) :
    ∀ {k c its pre r post i a}, Visit N t1 delays dmax sp P t x k c its pre r post i a →
      e = (a.early : ℚ) := by
  induction h with
  | first h1 h2 h3 =>
    intro k c its pre r post i a V
    obtain ⟨e1, e2, e3⟩ := V.first K ht h1
    have h4 := V.later K ht h3
    rw [e1] at h2
    have h5 := initial_of h2
    have := V.prevOK
    unfold CodedNet.prevOK at this
    rw [e2] at this
    simp only [Bool.and_eq_true, h5, decide_eq_true_eq, ← V.train] at this
    rw [h4] at this
    exact Option.some.inj this.2
  | next h1 h2 h3 h4 h5 ih =>
    intro k c its pre r post i a V
    obtain ⟨k', c', its', pre0, r0, post0, i0, a0, pre', r', post', i', a', mid, l, f, V0, V', hl, hm,
      hw⟩ := K.run ht h1
    obtain ⟨rfl, rfl, rfl, rfl, rfl⟩ := V'.same K V
    have e0 := ih V0
    have hq := V'.row_unique K ht h2 h3
    have h6 := V'.later K ht h5
    rw [hq, hm, hw.time, e0] at h6
    have ht' : roundIf 1 ((N.tag r').passingTime.getD 0) = (roundTenths (tenths r'.pass) : ℚ) := by
      have : (N.tag r').passingTime.getD 0 = (tenths r'.pass : ℚ) / 10 := tenths_eq V'.facts.tenth
      rw [this, roundIf_tenths]
    rw [ht'] at h6
    have h7 := hw.early
    push_cast at h7
    rw [h6] at h7
    exact Option.some.inj h7

/-! ## Switches -/

theorem switches_coded (hn : BlockNames N.names) (T : N.TableOK) {a b : Nat} {S : List Int}
    (h : SwitchesOf (zeros N.pathTable) (nameOf N.names a) (nameOf N.names b) S) {z : Int}
    (hz : z ∈ S) : z ∈ N.switchesOf a b := by
  rcases h with ⟨-, rfl⟩ | ⟨row, hr, hj, hc⟩
  · cases hz
  · obtain ⟨row0, hr0, rfl⟩ := List.mem_map.1 hr
    obtain ⟨y, hy, rfl⟩ := List.mem_map.1 hr0
    have hj' : joins y a b = true := (joins_iff hn).2 hj
    have hf : N.table.find? (fun x => joins x a b) = some y := by
      cases hf : N.table.find? fun x => joins x a b with
      | none =>
        rw [List.find?_eq_none] at hf
        exact absurd hj' (hf y hy)
      | some y' =>
        have hy' := List.find?_some hf
        have hym := List.mem_of_find?_eq_some hf
        have := pairsOK_same T.pairs y hy y' hym (by
          unfold joins at hj' hy' ⊢
          simp only [Bool.or_eq_true, Bool.and_eq_true, Nat.beq_eq] at hj' hy' ⊢
          omega)
        rw [this]
    unfold switchesOf
    rw [hf]
    simp only at hc ⊢
    unfold CellSwitches at hc
    split at hc
    · rename_i u v e
      rw [e]
      simp only
      rw [← hc]
      exact hz
    · rename_i n e
      rw [e]
      simp only
      rw [← hc]
      exact hz
    · rename_i l e
      rw [e]
      simp only
      rw [← hc]
      exact hz
    · cases hc

theorem mem_stName {i : Nat} {x : String} (h : N.stName i = some x) : x ∈ N.stName i := h

/-- the switches on the way out -/
theorem Visit.outSwitch (K : Planned N good td t1 delays dmax sp P)
    (V : Visit N t1 delays dmax sp P t x k c its pre r post i a)
    (hx : x ∉ ["KO(IC)", "KO(KS)"]) (hko : x = "KO(STM)" → ¬ ToOrFromKO td t "out") {S : List Int}
    (h : SwitchesAt td (zeros N.pathTable) t x "out" S) {z : Int} (hz : z ∈ S) : z ∈ a.outS := by
  obtain ⟨rows, ht, h | ⟨-, A, q, B, hAB, hs, h⟩⟩ := h
  · exact absurd h.1 (by decide)
  have ee := ht.unique (V.table K)
  obtain ⟨e1, e2, e3⟩ := once_split (K.once ht) hAB ee hs V.station
  rcases h with ⟨-, rfl⟩ | ⟨⟨w, hw, hws⟩, r1, B', hB, hS⟩
  · cases hz
  rw [e3] at hB
  obtain ⟨r1', post', rfl, hr1, -⟩ := List.map_eq_cons_iff.1 hB
  have hS' : SwitchesOf (zeros N.pathTable) (nameOf N.names r.block) (nameOf N.names r1'.block) S := by
    rw [e2, ← hr1] at hS
    exact hS
  have hz' := switches_coded K.net.names K.table hS' hz
  rcases V.facts.out r1' post' rfl with h | h | ⟨h, y, j, hf, hj, hk⟩ | h
  · exfalso
    rw [e3] at hw
    obtain ⟨w', hw', rfl⟩ := List.mem_map.1 hw
    exact hws (tag_station_none.2 (stIx_none.2 (h w' hw')))
  · exfalso
    have := K.ok.special.quiet i h x V.name
    apply hx
    simp only [List.mem_cons, List.not_mem_nil, or_false] at this ⊢
    tauto
  · exfalso
    have hxs := K.ok.special.stm i h x V.name
    obtain ⟨xj, hxj, hsj⟩ := station_name hj
    have hkj := K.ok.special.ko j hk xj hxj
    refine hko hxs (.inr ⟨rfl, ?_⟩)
    obtain ⟨hy, B1, B2, hB12, hB1⟩ := List.find?_eq_some_iff_append.1 hf
    refine ⟨_, rows, B1.map N.tag, ht, ⟨pre.map N.tag, N.tag r, N.tag y, B2.map N.tag, ?_, ?_, ?_, ?_⟩, rfl⟩
    · rw [ee, hB12]
      simp
    · rw [V.station, hxs]
    · show N.station y.block = _
      rw [hsj, hkj]
    · intro q hq
      obtain ⟨q', hq', rfl⟩ := List.mem_map.1 hq
      have := hB1 q' hq'
      exact tag_station_none.2 (stIx_none.2 (by simpa using this))
  · exact h z hz'

/-- the switches on the way in -/
theorem Visit.inSwitch (K : Planned N good td t1 delays dmax sp P)
    (V : Visit N t1 delays dmax sp P t x k c its pre r post i a)
    (hx : x ∉ ["KO(IC)", "KO(KS)"]) (hko : x = "KO(STM)" → ¬ ToOrFromKO td t "in") {S : List Int}
    (h : SwitchesAt td (zeros N.pathTable) t x "in" S) {z : Int} (hz : z ∈ S) : z ∈ a.inS := by
  obtain ⟨rows, ht, ⟨-, A, q, B, hAB, hs, h⟩ | h⟩ := h
  swap
  · exact absurd h.1 (by decide)
  have ee := ht.unique (V.table K)
  obtain ⟨e1, e2, e3⟩ := once_split (K.once ht) hAB ee hs V.station
  rcases h with ⟨-, rfl⟩ | ⟨⟨w, hw, hws⟩, A', r0, hA, hS⟩
  · cases hz
  have hne : N.lastSt pre ≠ none := by
    intro hn
    rw [e1] at hw
    obtain ⟨w', hw', rfl⟩ := List.mem_map.1 hw
    exact hws (tag_station_none.2 (lastSt_none hn w' hw'))
  obtain ⟨⟨s0, mid⟩, hl⟩ := Option.ne_none_iff_exists'.1 hne
  rw [e1] at hA
  obtain ⟨A1, A2, hA12, -, hA2⟩ := List.map_eq_append_iff.1 hA
  obtain ⟨r0', A3, rfl, hr0, hA3⟩ := List.map_eq_cons_iff.1 hA2
  have hA3 : A3 = [] := List.map_eq_nil_iff.1 hA3
  subst hA3
  have hS' : SwitchesOf (zeros N.pathTable) (nameOf N.names r0'.block) (nameOf N.names r.block) S := by
    rw [e2, ← hr0] at hS
    exact hS
  have hz' := switches_coded K.net.names K.table hS' hz
  obtain ⟨i0, a0, l, f, hi0, ha0, hwent, h⟩ := V.went hl
  rcases h with h | ⟨h, hk⟩ | h
  · exfalso
    have := K.ok.special.quiet i (has_iff.1 h) x V.name
    apply hx
    simp only [List.mem_cons, List.not_mem_nil, or_false] at this ⊢
    tauto
  · exfalso
    have hxs := K.ok.special.stm i (has_iff.1 h) x V.name
    obtain ⟨xj, hxj, hsj⟩ := station_name hi0
    have hkj := K.ok.special.ko i0 (has_iff.1 hk) xj hxj
    refine hko hxs (.inl ⟨rfl, ?_⟩)
    obtain ⟨B1, hB, -, hmid⟩ := lastSt_some hl
    refine ⟨_, rows, mid.map N.tag, ht, ⟨B1.map N.tag, N.tag s0, N.tag r, post.map N.tag, ?_, ?_, ?_, ?_⟩,
      rfl⟩
    · rw [ee, hB]
      simp
    · show N.station s0.block = _
      rw [hsj, hkj]
    · rw [V.station, hxs]
    · intro q hq
      obtain ⟨q', hq', rfl⟩ := List.mem_map.1 hq
      exact tag_station_none.2 (hmid q' hq')
  · exact hasInt_iff.1 (h r0' (by rw [hA12]; simp) z hz')

/-! ## Rolling stock -/

theorem crows_blocks (l : List (Nat × RawRow)) : (N.crows l).map (·.block) = l.map Prod.fst := by
  induction l with
  | nil => rfl
  | cons y l ih =>
    cases l with
    | nil => rfl
    | cons z l =>
      rw [crows, List.map_cons, ih]
      rfl

theorem lastBlock_coded (K : Planned N good td t1 delays dmax sp P) (hk : P[k]? = some (c, its))
    {bl : String} : LastBlock td c.number bl ↔ ∃ b, (c.rows.map Prod.fst).getLast? = some b ∧
      nameOf N.names b = bl := by
  have ht := K.table_of hk
  rw [← crows_blocks (N := N), List.getLast?_map]
  constructor
  · rintro ⟨rows, q, ht', hl, rfl⟩
    rw [ht'.unique ht, List.getLast?_map] at hl
    obtain ⟨y, hy, rfl⟩ := Option.map_eq_some_iff.1 hl
    exact ⟨y.block, by rw [hy]; rfl, rfl⟩
  · rintro ⟨b, hb, rfl⟩
    obtain ⟨y, hy, rfl⟩ := Option.map_eq_some_iff.1 hb
    exact ⟨_, N.tag y, ht, by rw [List.getLast?_map, hy]; rfl, rfl⟩

theorem firstBlock_coded (K : Planned N good td t1 delays dmax sp P) (hk : P[k]? = some (c, its))
    {bl : String} : FirstBlock td c.number bl ↔ ∃ b, (c.rows.map Prod.fst).head? = some b ∧
      nameOf N.names b = bl := by
  have ht := K.table_of hk
  rw [← crows_blocks (N := N), List.head?_map]
  constructor
  · rintro ⟨rows, q, ht', hl, rfl⟩
    rw [ht'.unique ht, List.head?_map] at hl
    obtain ⟨y, hy, rfl⟩ := Option.map_eq_some_iff.1 hl
    exact ⟨y.block, by rw [hy]; rfl, rfl⟩
  · rintro ⟨b, hb, rfl⟩
    obtain ⟨y, hy, rfl⟩ := Option.map_eq_some_iff.1 hb
    exact ⟨_, N.tag y, ht, by rw [List.head?_map, hy]; rfl, rfl⟩

theorem meets_coded (K : Planned N good td t1 delays dmax sp P) (hk : P[k]? = some (c, its))
    (hk' : P[k']? = some (c', its')) {bl : String} : Meets td c.number c'.number bl ↔
      over c c' = true ∧ ∃ b, (c'.rows.map Prod.fst).head? = some b ∧ nameOf N.names b = bl := by
  unfold Meets
  rw [lastBlock_coded K hk, firstBlock_coded K hk']
  unfold over
  constructor
  · rintro ⟨⟨b, hb, e⟩, b', hb', e'⟩
    have : b = b' := K.net.names.inj (e.trans e'.symm)
    subst this
    rw [hb, hb']
    exact ⟨Nat.beq_refl b, b, rfl, e⟩
  · rintro ⟨h, b', hb', e'⟩
    split at h
    · rename_i b b2 h1 h2
      rw [hb'] at h2
      cases h2
      rw [Nat.beq_eq] at h
      subst h
      exact ⟨⟨b, h1, e'⟩, b, hb', e'⟩
    · cases h

theorem handsOn_iff {c c' : CodedSection} : handsOn c c' = true ↔ over c c' = true ∧
    ((c.number : Int) = 10 * c'.number + 9 ∨
      ((c'.number : Int) = 10 * c.number + 9 ∧ over c' c = false)) := by
  unfold handsOn
  simp only [Bool.or_eq_true, Bool.and_eq_true, Nat.beq_eq, Bool.not_eq_true']
  constructor
  · rintro (⟨h1, h2⟩ | ⟨⟨h1, h2⟩, h3⟩)
    · exact ⟨h2, .inl (by omega)⟩
    · exact ⟨h2, .inr ⟨by omega, h3⟩⟩
  · rintro ⟨h1, h2 | ⟨h2, h3⟩⟩
    · exact .inl ⟨by omega, h1⟩
    · exact .inr ⟨⟨by omega, h1⟩, h3⟩

theorem Planned.key (K : Planned N good td t1 delays dmax sp P) (h : t ∈ Dict.keys td) :
    ∃ (k : Nat) (c : CodedSection) (its : List Item), P[k]? = some (c, its) ∧ t = (c.number : Int) := by
  rw [K.coded.keys] at h
  obtain ⟨c, hc, rfl⟩ := List.mem_map.1 h
  obtain ⟨⟨c', its⟩, hx, rfl⟩ := List.mem_map.1 hc
  obtain ⟨k, hk⟩ := List.mem_iff_getElem?.1 hx
  exact ⟨k, c', its, hk, rfl⟩

theorem handsOn_coded (K : Planned N good td t1 delays dmax sp P) (hk : P[k]? = some (c, its))
    (hk' : P[k']? = some (c', its')) : HandsOn td N.stationTable c.number c'.number x ↔
      handsOn c c' = true ∧ ∃ i, N.firstStation c' = some i ∧ N.stName i = some x := by
  unfold HandsOn
  rw [handsOn_iff]
  have hno : (∀ b, ¬ Meets td c'.number c.number b) ↔ over c' c = false := by
    constructor
    · intro h
      rw [← Bool.not_eq_true]
      intro ho
      have ho' := ho
      unfold over at ho'
      split at ho'
      · rename_i b b2 h1 h2
        exact h _ ((meets_coded K hk' hk).2 ⟨ho, b2, h2, rfl⟩)
      · cases ho'
    · intro h b hm
      have := ((meets_coded K hk' hk).1 hm).1
      rw [h] at this
      cases this
  constructor
  · rintro ⟨-, -, ⟨bl, hm, hb⟩, h⟩
    obtain ⟨ho, b, h1, rfl⟩ := (meets_coded K hk hk').1 hm
    rw [hno] at h
    refine ⟨⟨ho, h⟩, ?_⟩
    obtain ⟨i, e, hi, rfl, hs⟩ := stIx_belongs K.net hb
    refine ⟨i, ?_, stName_some.2 ⟨e, hi, rfl⟩⟩
    unfold firstStation
    rw [h1]
    exact hs
  · rintro ⟨⟨ho, h⟩, i, h1, h2⟩
    unfold firstStation at h1
    obtain ⟨b, hb, hs⟩ := Option.bind_eq_some_iff.1 h1
    have key : ∀ {k : Nat} {c : CodedSection} {its : List Item}, P[k]? = some (c, its) →
        (c.number : Int) ∈ Dict.keys td := by
      intro k c its hk
      rw [K.coded.keys, List.map_map]
      exact List.mem_map.2 ⟨_, List.mem_of_getElem? hk, rfl⟩
    refine ⟨key hk, key hk', ⟨_, (meets_coded K hk hk').2 ⟨ho, b, hb, rfl⟩, ?_⟩, by rw [hno]; exact h⟩
    rw [← station_some K.net]
    unfold station
    rw [hs]
    exact h2

/-- the arrival of a train -/
theorem Went.arrival {i0 i : Nat} {mid : List CRow} {r : CRow} {a0 a : Item} {l : Leg} {f : From}
    (H : Went N t1 i0 i mid r a0 a l f) {its : List Item} (h : itemAt its i = some a) :
    arrival its i = some f.arr := by
  unfold CodedNet.arrival
  rw [h]
  simp only [Option.bind_some, H.prev, Option.map_some]

theorem mem_handers (hk : P[k]? = some (c, its)) (h : handsOn c c' = true) :
    (c, its) ∈ handers P c' :=
  List.mem_filter.2 ⟨List.mem_of_getElem? hk, h⟩

theorem handers_mem (K : Planned N good td t1 delays dmax sp P) (hk' : P[k']? = some (c', its'))
    (hf : N.firstStation c' = some i) (hx : N.stName i = some x) (h : handers P c' ≠ []) :
    ∃ t0, HandsOn td N.stationTable t0 c'.number x := by
  obtain ⟨⟨c, its⟩, hc⟩ := List.exists_mem_of_ne_nil _ h
  obtain ⟨hm, ho⟩ := List.mem_filter.1 hc
  obtain ⟨k, hk⟩ := List.mem_iff_getElem?.1 hm
  exact ⟨c.number, (handsOn_coded K hk hk').2 ⟨ho, i, hf, hx⟩⟩

/-- departures -/
def planDep (N : CodedNet) (P : Plan) (t : Int) (x : String) : ℚ :=
  match (items P).find? fun a => decide ((a.train : Int) = t ∧ N.stName a.st = some x) with
  | some a => (a.dep : ℚ)
  | none => 0

theorem Visit.dep (K : Planned N good td t1 delays dmax sp P)
    (V : Visit N t1 delays dmax sp P t x k c its pre r post i a) : planDep N P t x = (a.dep : ℚ) := by
  unfold planDep
  have ha : (a.train : Int) = t ∧ N.stName a.st = some x := ⟨(V.number K).1, by rw [V.st]; exact V.name⟩
  cases hf : (items P).find? fun a => decide ((a.train : Int) = t ∧ N.stName a.st = some x) with
  | none =>
    rw [List.find?_eq_none] at hf
    exact absurd (decide_eq_true ha) (hf a V.mem)
  | some b =>
    have h2 := List.find?_some hf
    rw [decide_eq_true_eq] at h2
    have hb := List.mem_of_find?_eq_some hf
    have : b = a := K.item_unique hb V.mem (by have := h2.1.trans ha.1.symm; exact_mod_cast this)
      (stName_inj K.net h2.2 ha.2)
    rw [this]

/-- the rolling stock comes at one of the times of the item -/
theorem Visit.stockComes (K : Planned N good td t1 delays dmax sp P)
    (V : Visit N t1 delays dmax sp P t x k c its pre r post i a) {v : ℚ}
    (h : StockComes td N.stationTable t1 1 delays (planDep N P) t x v) :
    ∃ z ∈ a.comes, v = (z : ℚ) := by
  have hst := K.ok.stock _ (List.mem_of_getElem? V.sec)
  unfold stockChecks at hst
  simp only [Bool.and_eq_true, List.all_eq_true] at hst
  have ha := hst.1 a (itemAt_mem V.item).1
  have hno : (∀ t0, ¬ HandsOn td N.stationTable t0 t x) →
      ¬ (isAt (N.firstStation c) a.st = true ∧ (!(handers P c).isEmpty) = true) := by
    rintro h ⟨h1, h2⟩
    unfold isAt at h1
    cases hf : N.firstStation c with
    | none => rw [hf] at h1; cases h1
    | some j =>
      rw [hf] at h1
      simp only [Nat.beq_eq] at h1
      rw [V.st] at h1
      subst h1
      obtain ⟨t0, h0⟩ := handers_mem K V.sec hf V.name (by simpa using h2)
      rw [← V.train] at h0
      exact h t0 h0
  rcases h with ⟨t0, rows, p, m, h1, ht, hc, rfl⟩ | ⟨hn, rows, p, m, ht, hc, rfl⟩ |
    ⟨hn, rows, row, ht, hf, he⟩
  · obtain ⟨k0, c0, its0, pre0, r0, post0, i0, a0, pre1, r1, post1, i1, a1, mid, l, f, V0, V1, hl, rfl,
      hw⟩ := K.run ht hc
    rw [V.train, V1.train, handsOn_coded K V1.sec V.sec] at h1
    obtain ⟨ho, j, hj, hjx⟩ := h1
    have e1 : j = i := stName_inj K.net hjx V.name
    have e2 : i1 = i := stName_inj K.net V1.name V.name
    subst e1 e2
    have hmem := mem_handers V1.sec ho
    rw [if_pos ⟨by rw [hj, V.st]; exact Nat.beq_refl _, by
      rw [Bool.not_eq_true', List.isEmpty_eq_false_iff]
      exact List.ne_nil_of_mem hmem⟩] at ha
    rw [List.all_eq_true] at ha
    have := ha _ hmem
    simp only [V.st] at this
    rw [hw.arrival V1.item] at this
    refine ⟨f.arr, hasInt_iff.1 this, ?_⟩
    rw [V0.dep K, hw.time, hw.arr]
    push_cast
    ring
  · rw [if_neg (hno hn)] at ha
    obtain ⟨k0, c0, its0, pre0, r0, post0, i0, a0, pre1, r1, post1, i1, a1, mid, l, f, V0, V1, hl, rfl,
      hw⟩ := K.run ht hc
    obtain ⟨rfl, rfl, rfl, rfl, rfl⟩ := V1.same K V
    rw [hw.prev] at ha
    refine ⟨f.arr, hasInt_iff.1 ha, ?_⟩
    rw [V0.dep K, hw.time, hw.arr]
    push_cast
    ring
  · rw [if_neg (hno hn)] at ha
    rw [(V.first K ht hf).2.2] at ha
    exact ⟨a.early, hasInt_iff.1 ha, Visit.early K ht he V⟩

/-- rolling stock is handed over after the turnaround time -/
theorem Planned.stock (K : Planned N good td t1 delays dmax sp P) {rows rows' m : List Row} {q : Row}
    {v : ℚ} (h1 : HandsOn td N.stationTable t t' x) (ht : TableOf td t rows)
    (ht' : TableOf td t' rows') (hc : Consecutive rows p x m) (hq : rows'.head? = some q)
    (hv : q.turnaround = some v) :
    planDep N P t p + roundIf 1 (timesOf m).sum + v ≤ planDep N P t' x := by
  obtain ⟨k0, c0, its0, pre0, r0, post0, i0, a0, pre1, r1, post1, i1, a1, mid, l, f, V0, V1, hl, rfl,
    hw⟩ := K.run ht hc
  obtain ⟨k', c', its', hk', rfl, rfl⟩ := K.sec_of ht'
  rw [V1.train, handsOn_coded K V1.sec hk'] at h1
  obtain ⟨ho, j, hj, hjx⟩ := h1
  have e1 : j = i1 := stName_inj K.net hjx V1.name
  subst e1
  have hst := K.ok.stock _ (List.mem_of_getElem? hk')
  unfold stockChecks at hst
  simp only [Bool.and_eq_true] at hst
  have h := hst.2
  rw [List.all_eq_true] at h
  have := h _ (mem_handers V1.sec ho)
  simp only [hj] at this
  rw [hw.arrival V1.item] at this
  -- the first row of the second train
  rw [List.head?_map] at hq
  obtain ⟨y, hy, rfl⟩ := Option.map_eq_some_iff.1 hq
  obtain ⟨ys, hys⟩ : ∃ ys, N.crows c'.rows = y :: ys := by
    cases hcr : N.crows c'.rows with
    | nil => rw [hcr] at hy; cases hy
    | cons b l => rw [hcr] at hy; cases hy; exact ⟨l, rfl⟩
  have hyb : (c'.rows.map Prod.fst).head? = some y.block := by
    rw [← crows_blocks (N := N), hys]
    rfl
  have hyi : N.stIx y.block = some j := by
    unfold firstStation at hj
    rw [hyb] at hj
    exact hj
  obtain ⟨a, ha, hok⟩ := (K.section hk').2.2 [] y ys j (by rw [hys]; rfl) hyi
  have V : Visit N t1 delays dmax sp P c'.number x k' c' its' [] y ys j a :=
    ⟨hk', rfl, by rw [hys]; rfl, hyi, hjx, ha, hok⟩
  have hraw : ∃ z, c'.rows.head? = some z ∧ z.2.turnaround = some v := by
    have := crows_getElem? (N := N) c'.rows 0
    rw [hys] at this
    simp only [List.getElem?_cons_zero] at this
    obtain ⟨z, hz, e⟩ := Option.map_eq_some_iff.1 this.symm
    rw [← List.head?_eq_getElem?] at hz
    refine ⟨z, hz, ?_⟩
    have : y.raw = z.2 := by rw [← e]
    rw [← this]
    exact hv
  obtain ⟨z, hz, hzt⟩ := hraw
  rw [ha, hz] at this
  simp only [hzt, decide_eq_true_eq] at this
  rw [V0.dep K, V.dep K, hw.time]
  have e := hw.arr
  have e' : (f.arr : ℚ) = a0.dep + l.run := by rw [e]; push_cast; ring
  rw [e'] at this
  exact this

end

end CodedNet

end Verif
