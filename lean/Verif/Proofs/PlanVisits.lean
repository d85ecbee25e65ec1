import Verif.Proofs.Tenths

/-!
# Plans for coded sheets: the items and the tables
-/

namespace Verif

namespace CodedNet

variable {N : CodedNet} {good : List (Nat × Nat)} {td : Trains} {t1 : String}
  {delays : List (Int × ℚ)} {dmax : Int} {sp : Special} {P : Plan}

/-- a plan that passes the checks, except those of trains against each other, for trains that are made of
its sections -/
structure Planned (N : CodedNet) (good : List (Nat × Nat)) (td : Trains) (t1 : String)
    (delays : List (Int × ℚ)) (dmax : Int) (sp : Special) (P : Plan) : Prop where
  net : N.NetOK good
  data : GoodData td N.stationTable
  table : N.TableOK
  coded : N.Coded (P.map Prod.fst) td
  ok : N.PlanBase t1 delays dmax sp P

/-- the train of the `k`-th section of the plan visits station `x`, with item `a` -/
structure Visit (N : CodedNet) (t1 : String) (delays : List (Int × ℚ)) (dmax : Int) (sp : Special)
    (P : Plan) (t : Int) (x : String) (k : Nat) (c : CodedSection) (its : List Item) (pre : List CRow)
    (r : CRow) (post : List CRow) (i : Nat) (a : Item) : Prop where
  sec : P[k]? = some (c, its)
  train : t = (c.number : Int)
  split : N.crows c.rows = pre ++ r :: post
  ix : N.stIx r.block = some i
  name : N.stName i = some x
  item : itemAt its i = some a
  ok : N.rowOK t1 (addedDelay delays c.number) dmax sp c its i pre r post a = true

theorem mem_splits {α : Type} {l pre post : List α} {r : α} (h : l = pre ++ r :: post) :
    (pre, r, post) ∈ splits l := by
  subst h
  induction pre with
  | nil => exact List.mem_cons_self
  | cons a pre ih => exact List.mem_cons_of_mem _ (List.mem_map.2 ⟨_, ih, rfl⟩)

theorem itemAt_mem {its : List Item} {i : Nat} {a : Item} (h : itemAt its i = some a) :
    a ∈ its ∧ a.st = i := by
  unfold itemAt at h
  have h2 := List.find?_some h
  rw [Nat.beq_eq] at h2
  exact ⟨List.mem_of_find?_eq_some h, h2⟩

theorem itemAt_of_mem {its : List Item} (hn : (its.map Item.st).Nodup) {a : Item} (h : a ∈ its) :
    itemAt its a.st = some a := by
  unfold itemAt
  cases hf : its.find? fun b => Nat.beq b.st a.st with
  | none =>
    rw [List.find?_eq_none] at hf
    exact absurd (Nat.beq_refl _) (hf a h)
  | some b =>
    have h2 := List.find?_some hf
    rw [Nat.beq_eq] at h2
    rw [List.inj_on_of_nodup_map hn (List.mem_of_find?_eq_some hf) h h2]

/-- the checks of a section, in parts -/
theorem Planned.section (K : Planned N good td t1 delays dmax sp P) {k : Nat} {c : CodedSection}
    {its : List Item} (h : P[k]? = some (c, its)) :
    (its.map Item.st).Nodup ∧ (∀ a ∈ its, a.train = c.number ∧ a.pos = k) ∧
    ∀ pre r post i, N.crows c.rows = pre ++ r :: post → N.stIx r.block = some i →
      ∃ a, itemAt its i = some a ∧
        N.rowOK t1 (addedDelay delays c.number) dmax sp c its i pre r post a = true := by
  have hm : ((c, its), k) ∈ P.zipIdx := by
    rw [List.mem_iff_getElem?]
    exact ⟨k, by rw [List.getElem?_zipIdx, h]; simp⟩
  have := K.ok.sections _ hm
  unfold sectionOK at this
  simp only [Bool.and_eq_true, List.all_eq_true, Nat.beq_eq] at this
  obtain ⟨⟨h1, h2⟩, h3⟩ := this
  refine ⟨nodupNat_nodup h1, h2, ?_⟩
  intro pre r post i hs hi
  have := h3 _ (mem_splits hs)
  simp only [hi] at this
  split at this
  · cases this
  · rename_i a ha
    exact ⟨a, ha, this⟩

theorem Planned.numbers (K : Planned N good td t1 delays dmax sp P) {k k' : Nat}
    {c c' : CodedSection} {its its' : List Item} (h : P[k]? = some (c, its))
    (h' : P[k']? = some (c', its')) (e : c.number = c'.number) : k = k' := by
  have := K.coded.numbers
  rw [List.map_map] at this
  obtain ⟨hl, h1⟩ := List.getElem?_eq_some_iff.1 h
  obtain ⟨hl', h2⟩ := List.getElem?_eq_some_iff.1 h'
  refine (this.getElem_inj_iff (hi := by simpa using hl) (hj := by simpa using hl')).1 ?_
  simp [h1, h2, e]

theorem Planned.sec_of (K : Planned N good td t1 delays dmax sp P) {t : Int} {rows : List Row}
    (ht : TableOf td t rows) : ∃ (k : Nat) (c : CodedSection) (its : List Item),
      P[k]? = some (c, its) ∧ t = (c.number : Int) ∧ rows = (N.crows c.rows).map N.tag := by
  obtain ⟨c, hc, h1, h2⟩ := K.coded.table t rows ht
  obtain ⟨⟨c', its⟩, hx, rfl⟩ := List.mem_map.1 hc
  obtain ⟨k, hk⟩ := List.mem_iff_getElem?.1 hx
  exact ⟨k, c', its, hk, h1, h2⟩

theorem Planned.table_of (K : Planned N good td t1 delays dmax sp P) {k : Nat} {c : CodedSection}
    {its : List Item} (h : P[k]? = some (c, its)) :
    TableOf td c.number ((N.crows c.rows).map N.tag) :=
  K.coded.of_section (List.mem_map.2 ⟨_, List.mem_of_getElem? h, rfl⟩)

theorem Planned.once (K : Planned N good td t1 delays dmax sp P) {t : Int} {rows : List Row}
    (ht : TableOf td t rows) : OnceEach rows := by
  obtain ⟨info, hm⟩ := ht.mem
  exact K.data.trains.once _ hm

/-- every station of a table is visited -/
theorem Planned.visit (K : Planned N good td t1 delays dmax sp P) {t : Int} {pre' post' : List Row}
    {q : Row} {x : String} (ht : TableOf td t (pre' ++ q :: post')) (hq : q.station = some x) :
    ∃ k c its pre r post i a, Visit N t1 delays dmax sp P t x k c its pre r post i a ∧
      pre' = pre.map N.tag ∧ q = N.tag r ∧ post' = post.map N.tag := by
  obtain ⟨k, c, its, hk, h1, h2⟩ := K.sec_of ht
  obtain ⟨pre, l, e, e1, e2⟩ := List.map_eq_append_iff.1 h2.symm
  obtain ⟨r, post, rfl, e3, e4⟩ := List.map_eq_cons_iff.1 e2
  have hs : N.station r.block = some x := by rw [← e3] at hq; exact hq
  obtain ⟨i, hi, hn⟩ := stIx_of_station hs
  obtain ⟨a, ha, hok⟩ := (K.section hk).2.2 pre r post i e hi
  exact ⟨k, c, its, pre, r, post, i, a, ⟨hk, h1, e, hi, hn, ha, hok⟩, e1.symm, e3.symm, e4.symm⟩

section
variable {t t' : Int} {x x' : String} {k k' : Nat} {c c' : CodedSection} {its its' : List Item}
  {pre pre' post post' : List CRow} {r r' : CRow} {i i' : Nat} {a a' : Item}

theorem Visit.mem (V : Visit N t1 delays dmax sp P t x k c its pre r post i a) : a ∈ items P :=
  List.mem_flatMap.2 ⟨_, List.mem_of_getElem? V.sec, (itemAt_mem V.item).1⟩

theorem Visit.st (V : Visit N t1 delays dmax sp P t x k c its pre r post i a) : a.st = i :=
  (itemAt_mem V.item).2

theorem Visit.number (K : Planned N good td t1 delays dmax sp P)
    (V : Visit N t1 delays dmax sp P t x k c its pre r post i a) : (a.train : Int) = t ∧ a.pos = k := by
  have := (K.section V.sec).2.1 a (itemAt_mem V.item).1
  exact ⟨by rw [V.train, this.1], this.2⟩

theorem Visit.same (K : Planned N good td t1 delays dmax sp P)
    (V : Visit N t1 delays dmax sp P t x k c its pre r post i a)
    (V' : Visit N t1 delays dmax sp P t x k' c' its' pre' r' post' i' a') :
    k = k' ∧ c = c' ∧ its = its' ∧ i = i' ∧ a = a' := by
  have e : c.number = c'.number := by
    have := V.train.symm.trans V'.train
    exact_mod_cast this
  have hk := K.numbers V.sec V'.sec e
  subst hk
  have h := V.sec.symm.trans V'.sec
  simp only [Option.some.injEq, Prod.mk.injEq] at h
  obtain ⟨rfl, rfl⟩ := h
  have hi := stName_inj K.net V.name V'.name
  subst hi
  have := V.item.symm.trans V'.item
  exact ⟨rfl, rfl, rfl, rfl, Option.some.inj this⟩

theorem Visit.table (K : Planned N good td t1 delays dmax sp P)
    (V : Visit N t1 delays dmax sp P t x k c its pre r post i a) :
    TableOf td t (pre.map N.tag ++ N.tag r :: post.map N.tag) := by
  have := K.table_of V.sec
  rw [V.train]
  rw [V.split] at this
  simpa using this

theorem Visit.station (V : Visit N t1 delays dmax sp P t x k c its pre r post i a) :
    (N.tag r).station = some x := by
  show N.station r.block = some x
  unfold CodedNet.station
  rw [V.ix]
  exact V.name

end

/-- items of the same train and station are the same -/
theorem Planned.item_unique (K : Planned N good td t1 delays dmax sp P) {a b : Item}
    (ha : a ∈ items P) (hb : b ∈ items P) (ht : a.train = b.train) (hs : a.st = b.st) : a = b := by
  obtain ⟨⟨c, its⟩, hx, h1⟩ := List.mem_flatMap.1 ha
  obtain ⟨⟨c', its'⟩, hx', h1'⟩ := List.mem_flatMap.1 hb
  obtain ⟨k, hk⟩ := List.mem_iff_getElem?.1 hx
  obtain ⟨k', hk'⟩ := List.mem_iff_getElem?.1 hx'
  have e1 := ((K.section hk).2.1 a h1).1
  have e2 := ((K.section hk').2.1 b h1').1
  have := K.numbers hk hk' (by omega)
  subst this
  rw [hk] at hk'
  cases hk'
  exact List.inj_on_of_nodup_map (K.section hk).1 h1 h1' hs

/-! ## The rows since the last station -/

theorem lastSt_none {l : List CRow} (h : N.lastSt l = none) : ∀ r ∈ l, N.stIx r.block = none := by
  induction l with
  | nil => simp
  | cons a l ih =>
    unfold lastSt at h
    split at h
    · cases h
    · rename_i h0
      split at h
      · cases h
      · rename_i h1
        intro r hr
        rcases List.mem_cons.1 hr with rfl | hr
        · rw [stIx_none]; simpa using h1
        · exact ih h0 r hr

theorem lastSt_of_none {l : List CRow} (h : ∀ r ∈ l, N.stIx r.block = none) : N.lastSt l = none := by
  induction l with
  | nil => rfl
  | cons a l ih =>
    unfold lastSt
    rw [ih fun r hr => h r (List.mem_cons_of_mem _ hr)]
    simp only
    have := h a List.mem_cons_self
    rw [stIx_none] at this
    rw [if_neg (by simp [this])]

theorem lastSt_append {pre mid : List CRow} {r : CRow} (h : N.inSt r.block = true)
    (hm : ∀ r ∈ mid, N.stIx r.block = none) : N.lastSt (pre ++ r :: mid) = some (r, mid) := by
  induction pre with
  | nil =>
    rw [List.nil_append]
    unfold lastSt
    rw [lastSt_of_none hm]
    simp only
    rw [if_pos h]
  | cons a pre ih =>
    rw [List.cons_append]
    unfold lastSt
    rw [ih]

theorem lastSt_some {l : List CRow} {r : CRow} {mid : List CRow} (h : N.lastSt l = some (r, mid)) :
    ∃ pre, l = pre ++ r :: mid ∧ N.inSt r.block = true ∧ ∀ r ∈ mid, N.stIx r.block = none := by
  induction l with
  | nil => cases h
  | cons a l ih =>
    unfold lastSt at h
    split at h
    · rename_i y hy
      cases h
      obtain ⟨pre, e, h1, h2⟩ := ih hy
      exact ⟨a :: pre, by rw [e]; rfl, h1, h2⟩
    · rename_i h0
      split at h
      · rename_i h1
        cases h
        exact ⟨[], rfl, h1, lastSt_none h0⟩
      · cases h

theorem tag_station_none {r : CRow} : (N.tag r).station = none ↔ N.stIx r.block = none := by
  show N.station r.block = none ↔ _
  constructor
  · intro h
    cases hi : N.stIx r.block with
    | none => rfl
    | some i =>
      obtain ⟨x, -, hx⟩ := station_name hi
      rw [h] at hx
      cases hx
  · intro h
    unfold station
    rw [h]
    rfl

/-- the way from one station to the next -/
structure Went (N : CodedNet) (t1 : String) (i0 i : Nat) (mid : List CRow) (r : CRow) (a0 a : Item)
    (l : Leg) (p : From) : Prop where
  next : a0.next = some l
  prev : a.prev = some p
  st : l.st = i
  pst : p.st = i0
  blocks : l.blocks = mid.map (·.block)
  pblocks : p.blocks = mid.map (·.block)
  times : l.times = mid.map fun x => tenths x.pass
  run : l.run = roundTenths l.times.sum
  tenth : ∀ x ∈ mid, isTenths x.pass = true
  inS : l.inS = a.inS
  arr : p.arr = a0.dep + l.run
  rank : p.rank = a0.rank
  early : laterOf t1 r.raw.dep (((a0.early + l.run + roundTenths (tenths r.pass) : Int) : ℚ)) =
    some (a.early : ℚ)
  stay : a.go = true → p.arr + roundTenths (tenths r.pass) ≤ a.dep

section
variable {t t' : Int} {x x' p : String} {k k' : Nat} {c c' : CodedSection} {its its' : List Item}
  {pre pre' post post' : List CRow} {r r' : CRow} {i i' : Nat} {a a' : Item}

theorem Visit.prevOK (V : Visit N t1 delays dmax sp P t x k c its pre r post i a) :
    N.prevOK t1 (addedDelay delays c.number) sp its i pre r a = true := by
  have := V.ok
  unfold rowOK at this
  rw [Bool.and_eq_true] at this
  exact this.2

theorem Visit.went (V : Visit N t1 delays dmax sp P t x k c its pre r post i a) {r0 : CRow}
    {mid : List CRow} (h : N.lastSt pre = some (r0, mid)) :
    ∃ i0 a0 l p, N.stIx r0.block = some i0 ∧ itemAt its i0 = some a0 ∧
      Went N t1 i0 i mid r a0 a l p ∧
      (has sp.quiet i = true ∨ (has sp.stm i = true ∧ has sp.ko i0 = true) ∨
        ∀ r1, pre.getLast? = some r1 → ∀ z ∈ N.switchesOf r1.block r.block, hasInt a.inS z = true) := by
  have hp := V.prevOK
  unfold CodedNet.prevOK at hp
  rw [h] at hp
  simp only at hp
  split at hp
  · cases hp
  · rename_i i0 hi0
    split at hp
    · rename_i a0 p ha0 hpr
      simp only [Bool.and_eq_true] at hp
      obtain ⟨⟨⟨⟨⟨hl, h1⟩, h2⟩, h3⟩, h4⟩, h5⟩ := hp
      split at hl
      · rename_i l hl0
        simp only [Bool.and_eq_true, decide_eq_true_eq, Nat.beq_eq, List.all_eq_true] at hl
        obtain ⟨⟨⟨⟨⟨⟨⟨q1, q2⟩, q3⟩, q4⟩, q5⟩, q6⟩, q7⟩, q8⟩ := hl
        rw [Nat.beq_eq] at h1
        rw [decide_eq_true_eq] at h2 h3
        refine ⟨i0, a0, l, p, hi0, ha0, ⟨hl0, hpr, q1, h1, q2, h3, q3, q4, q5, q6, q7, h2, q8, ?_⟩, ?_⟩
        · intro hg
          rw [hg] at h4
          simpa using h4
        · simp only [Bool.or_eq_true, Bool.and_eq_true] at h5
          rcases h5 with (h5 | h5) | h5
          · exact .inl h5
          · exact .inr (.inl h5)
          · refine .inr (.inr ?_)
            intro r1 hr1 z hz
            rw [hr1] at h5
            simp only [List.all_eq_true] at h5
            exact h5 z hz
      · cases hl
    · cases hp

/-- the run to the next station -/
theorem Planned.run (K : Planned N good td t1 delays dmax sp P) {rows m : List Row}
    (ht : TableOf td t rows) (hc : Consecutive rows p x m) :
    ∃ k c its pre0 r0 post0 i0 a0 pre r post i a mid l f,
      Visit N t1 delays dmax sp P t p k c its pre0 r0 post0 i0 a0 ∧
      Visit N t1 delays dmax sp P t x k c its pre r post i a ∧
      N.lastSt pre = some (r0, mid) ∧ m = mid.map N.tag ∧ Went N t1 i0 i mid r a0 a l f := by
  obtain ⟨pre', r1, r2, post', rfl, h1, h2, hm⟩ := hc
  have ht1 : TableOf td t (pre' ++ r1 :: (m ++ r2 :: post')) := by simpa using ht
  obtain ⟨k, c, its, pre, r, post, i, a, V, e1, e2, e3⟩ := K.visit ht h2
  obtain ⟨k0, c0, its0, pre0, r0, post0, i0, a0, V0, f1, f2, f3⟩ := K.visit ht1 h1
  have hcn : c0.number = c.number := by
    have := V0.train.symm.trans V.train
    exact_mod_cast this
  have hk := K.numbers V0.sec V.sec hcn
  subst hk
  have h := V0.sec.symm.trans V.sec
  simp only [Option.some.injEq, Prod.mk.injEq] at h
  obtain ⟨rfl, rfl⟩ := h
  -- the rows before the second station
  have hsp := V0.split.symm.trans V.split
  obtain ⟨A, B, eA, eB, eC⟩ := List.map_eq_append_iff.1 e1.symm
  obtain ⟨s0, mid, rfl, eD, eE⟩ := List.map_eq_cons_iff.1 eC
  have hpre : pre0 = A ∧ r0 = s0 := by
    have hlen : pre0.length = A.length := by
      have u1 := congrArg List.length f1
      have u2 := congrArg List.length eB
      simp only [List.length_map] at u1 u2
      omega
    rw [eA, List.append_assoc, List.cons_append] at hsp
    obtain ⟨w1, w2⟩ := List.append_inj hsp hlen
    exact ⟨w1, (List.cons.inj w2).1⟩
  obtain ⟨rfl, rfl⟩ := hpre
  have hin : N.inSt r0.block = true := by
    rw [stIx_isSome]
    exact ⟨_, V0.ix⟩
  have hmid : ∀ r ∈ mid, N.stIx r.block = none := by
    intro r hr
    rw [← tag_station_none]
    refine hm _ ?_
    rw [← eE]
    exact List.mem_map_of_mem hr
  have hlast : N.lastSt pre = some (r0, mid) := by
    rw [eA]
    exact lastSt_append hin hmid
  obtain ⟨j0, b0, l, f, hj0, hb0, hw, -⟩ := V.went hlast
  have : j0 = i0 := by
    have := hj0.symm.trans V0.ix
    exact Option.some.inj this
  subst this
  have : b0 = a0 := Option.some.inj (hb0.symm.trans V0.item)
  subst this
  exact ⟨k0, c0, its0, pre0, r0, post0, j0, b0, pre, r, post, i, a, mid, l, f, V0, V, hlast, eE.symm, hw⟩

end

section
variable {i0 i : Nat} {mid : List CRow} {r : CRow} {a0 a : Item} {l : Leg} {p : From}

theorem timesOf_tags (h : ∀ x ∈ mid, isTenths x.pass = true) :
    timesOf (mid.map N.tag) = minutes (mid.map fun x => tenths x.pass) := by
  unfold timesOf minutes
  rw [List.map_map, List.map_map]
  refine List.map_congr_left fun x hx => ?_
  exact tenths_eq (h x hx)

theorem Went.minutes (H : Went N t1 i0 i mid r a0 a l p) :
    timesOf (mid.map N.tag) = minutes l.times := by
  rw [timesOf_tags H.tenth, H.times]

theorem Went.time (H : Went N t1 i0 i mid r a0 a l p) :
    roundIf 1 (timesOf (mid.map N.tag)).sum = (l.run : ℚ) := by
  rw [H.minutes, minutes_sum, roundIf_tenths, H.run]

theorem tag_paths (mid : List CRow) :
    (mid.map N.tag).map (·.path) = (mid.map (·.block)).map (nameOf N.names) := by
  rw [List.map_map, List.map_map]
  rfl

theorem paths_inj (hn : BlockNames N.names) {mid mid' : List CRow}
    (h : (mid.map N.tag).map (·.path) = (mid'.map N.tag).map (·.path)) :
    mid.map (·.block) = mid'.map (·.block) := by
  rw [tag_paths, tag_paths] at h
  exact List.map_injective_iff.2 hn.inj h

theorem paths_inj_reverse (hn : BlockNames N.names) {mid mid' : List CRow}
    (h : (mid.map N.tag).map (·.path) = ((mid'.map N.tag).map (·.path)).reverse) :
    mid.map (·.block) = (mid'.map (·.block)).reverse := by
  rw [tag_paths, tag_paths, ← List.map_reverse] at h
  exact List.map_injective_iff.2 hn.inj h

end

end CodedNet

end Verif
