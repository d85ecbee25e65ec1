import Verif.Proofs.PlanRules

/-!
# Delays that cannot be avoided

Pairs of trains of a coded sheet that force a delay in every solution.
-/

namespace Verif

namespace CodedNet

variable {N : CodedNet} {good : List (Nat × Nat)} {td : Trains} {t1 : String}
  {delays : List (Int × ℚ)} {dmax : Int} {sp : Special} {P : Plan}

section
variable {t t' : Int} {x x' p : String} {k k' : Nat} {c c' : CodedSection} {its its' : List Item}
  {pre pre' post post' : List CRow} {r r' : CRow} {i i' : Nat} {a a' b : Item}

/-- the train has a block in the station -/
def hasBlock (N : CodedNet) (c : CodedSection) (i : Nat) : Bool := c.rows.any fun y => isAt (N.stIx y.1) i

theorem isAt_iff {o : Option Nat} {i : Nat} : isAt o i = true ↔ o = some i := by
  unfold isAt
  split
  · rename_i j
    rw [Nat.beq_eq]
    constructor
    · rintro rfl; rfl
    · intro h; exact Option.some.inj h
  · constructor
    · intro h; cases h
    · intro h; cases h

theorem Planned.visit_of (K : Planned N good td t1 delays dmax sp P) (hk : P[k]? = some (c, its))
    (h : N.hasBlock c i = true) :
    ∃ x pre r post a, Visit N t1 delays dmax sp P c.number x k c its pre r post i a := by
  unfold hasBlock at h
  obtain ⟨y, hy, hi⟩ := List.any_eq_true.1 h
  rw [isAt_iff] at hi
  have hb : y.1 ∈ (N.crows c.rows).map (·.block) := by
    rw [crows_blocks]
    exact List.mem_map_of_mem hy
  obtain ⟨r, hr, e⟩ := List.mem_map.1 hb
  obtain ⟨pre, post, hs⟩ := List.append_of_mem hr
  rw [← e] at hi
  obtain ⟨a, ha, hok⟩ := (K.section hk).2.2 pre r post i hs hi
  obtain ⟨x, hx, -⟩ := station_name hi
  exact ⟨x, pre, r, post, a, hk, rfl, hs, hi, hx, ha, hok⟩

/-- the way to the station, told by the rows -/
theorem Visit.came (K : Planned N good td t1 delays dmax sp P)
    (V : Visit N t1 delays dmax sp P t x k c its pre r post i a) {f : From} (hf : a.prev = some f) :
    ∃ rows p pre0 r0 post0 a0 mid l, TableOf td t rows ∧ Consecutive rows p x (mid.map N.tag) ∧
      Visit N t1 delays dmax sp P t p k c its pre0 r0 post0 f.st a0 ∧
      Went N t1 f.st i mid r a0 a l f := by
  cases hl : N.lastSt pre with
  | none =>
    have := V.prevOK
    unfold CodedNet.prevOK at this
    rw [hl, hf] at this
    simp at this
  | some y =>
    obtain ⟨r0, mid⟩ := y
    obtain ⟨i0, a0, l, f', hi0, ha0, hw, -⟩ := V.went hl
    have e : f' = f := Option.some.inj (hw.prev.symm.trans hf)
    subst e
    obtain ⟨pre0, hp, hin, hmid⟩ := lastSt_some hl
    have hsp : N.crows c.rows = pre0 ++ r0 :: (mid ++ r :: post) := by
      rw [V.split, hp]
      simp
    obtain ⟨p, hn, hs⟩ := station_name hi0
    obtain ⟨a1, ha1, hok⟩ := (K.section V.sec).2.2 _ _ _ i0 hsp hi0
    have e2 : a1 = a0 := Option.some.inj (ha1.symm.trans ha0)
    subst e2
    have e3 := hw.pst
    subst e3
    refine ⟨_, p, pre0, r0, _, a1, mid, l, V.table K, ⟨pre0.map N.tag, N.tag r0, N.tag r,
      post.map N.tag, ?_, hs, V.station, ?_⟩, ⟨V.sec, V.train, hsp, hi0, hn, ha1, hok⟩, hw⟩
    · rw [hp]
      simp
    · intro q hq
      obtain ⟨q', hq', rfl⟩ := List.mem_map.1 hq
      exact tag_station_none.2 (hmid q' hq')

theorem Visit.leaves (K : Planned N good td t1 delays dmax sp P)
    (V : Visit N t1 delays dmax sp P t x k c its pre r post i a) (hp : post ≠ []) : Leaves td t x := by
  rw [leaves_iff K.data]
  refine ⟨⟨_, V.table K, N.tag r, by simp, V.station⟩, ?_⟩
  rintro ⟨rows, q, ht, hl, hb⟩
  have e := ht.unique (V.table K)
  subst e
  obtain ⟨z, hz⟩ : ∃ z, post.getLast? = some z := by
    cases hg : post.getLast? with
    | none => exact absurd (List.getLast?_eq_none_iff.1 hg) hp
    | some z => exact ⟨z, rfl⟩
  have hzl : (pre.map N.tag ++ N.tag r :: post.map N.tag).getLast? = some (N.tag z) := by
    rw [List.getLast?_append, List.getLast?_cons, List.getLast?_map, hz]
    rfl
  rw [hzl] at hl
  cases hl
  have hs : (N.tag z).station = some x := (station_some K.net).2 hb
  have hon := K.once ht
  unfold OnceEach at hon
  rw [List.filterMap_append, List.nodup_append] at hon
  have h2 := hon.2.1
  rw [List.filterMap_cons_some V.station, List.nodup_cons] at h2
  exact h2.1 (List.mem_filterMap.2 ⟨_, List.mem_map_of_mem (List.mem_of_getLast? hz), hs⟩)

/-- the train does not end in the station, nor in one with a longer name -/
def goesOnB (N : CodedNet) (c : CodedSection) (i : Nat) : Bool := match N.lastStation c, N.stName i with
  | some j, some x => match N.stName j with
    | some y => decide (¬ x.toList <:+: y.toList)
    | none => true
  | _, _ => true

theorem Visit.goesOnFrom (K : Planned N good td t1 delays dmax sp P)
    (V : Visit N t1 delays dmax sp P t x k c its pre r post i a) (h : N.goesOnB c i = true) :
    GoesOnFrom td N.stationTable t x := by
  rintro y ⟨rows, q, ht, hl, hb⟩ hin
  rw [V.train] at ht
  obtain ⟨b, hbl, e⟩ := (lastBlock_coded K V.sec (bl := q.path)).1 ⟨rows, q, ht, hl, rfl⟩
  rw [← e, ← station_some K.net] at hb
  obtain ⟨j, hj, hy⟩ := stIx_of_station hb
  have hls : N.lastStation c = some j := by
    unfold lastStation
    rw [hbl]
    exact hj
  unfold goesOnB at h
  rw [hls, V.name] at h
  simp only [hy, decide_eq_true_eq] at h
  exact h hin

end

/-- earliest departures are there -/
def HasEarliest (td : Trains) (t1 : String) (delays : List (Int × ℚ)) : Prop :=
  ∀ t rows x, TableOf td t rows → Leaves td t x →
    ∃ e, Earliest rows t1 1 (addedDelay delays t) x e

theorem hasEarliest {st : Stations} {table : List PathRow} {ts : TrainSets} {tt : Timetable}
    (G : GoodData td st) (h : makeInput td st table t1 1 delays = .ok (ts, tt)) :
    HasEarliest td t1 delays := by
  intro t rows x ht hl
  obtain ⟨e, he⟩ := (gen_of_input G h).edt hl
  exact ⟨e, (C70_earliest G h ht hl).1 he⟩

section
variable {t t' : Int} {x x' p : String} {k k' : Nat} {c c' : CodedSection} {its its' : List Item}
  {pre pre' post post' : List CRow} {r r' : CRow} {i i' : Nat} {a a' b : Item}
  {bound : ℚ} {cat : Cat} {π : TablePlan}

theorem Visit.between (K : Planned N good td t1 delays dmax sp P) (E : HasEarliest td t1 delays)
    (R : TableRules td N.stationTable N.pathTable t1 1 delays bound cat π)
    (V : Visit N t1 delays dmax sp P t x k c its pre r post i a) (hp : post ≠ []) :
    (a.early : ℚ) ≤ π.dep t x ∧ π.dep t x ≤ a.early + bound := by
  have hl := V.leaves K hp
  obtain ⟨e, he⟩ := E _ _ _ (V.table K) hl
  obtain ⟨h1, h2, -⟩ := R.late _ _ _ _ (V.table K) hl he
  have := Visit.early K (V.table K) he V
  rw [← this]
  exact ⟨h1, h2⟩

/-- Trains `k` and `k'` come to the same track of station `i` and both stay too long: one of them has
to wait for `D` minutes in the station before. -/
def sameTrack (N : CodedNet) (P : Plan) (k k' i : Nat) (D : Int) : Bool :=
  match P[k]?, P[k']? with
  | some (c, its), some (c', its') =>
    N.hasBlock c i && N.hasBlock c' i && N.goesOnB c i && N.goesOnB c' i &&
    (handers P c).isEmpty && (handers P c').isEmpty && !Nat.beq k k' &&
    (match N.stName i with
    | some x => decide (x ∉ ["KO(KS)", "KO(IC)"])
    | none => false) &&
    (match itemAt its i, itemAt its' i with
    | some a, some b => a.go && b.go && !paired a.train b.train &&
      (match a.track, b.track with
      | some y, some z => Nat.beq y z && decide (nameOf N.names y ∉ blocksLeftOut)
      | _, _ => false) &&
      (match a.prev, b.prev with
      | some f, some f' => (match itemAt its f.st, itemAt its' f'.st with
        | some a0, some b0 => (match a0.next, b0.next with
          | some l, some l' => decide (b0.early + l'.run + D ≤ a.early) &&
              decide (a0.early + l.run + D ≤ b.early)
          | _, _ => false)
        | _, _ => false)
      | _, _ => false)
    | _, _ => false)
  | _, _ => false

theorem Visit.track_eq (V : Visit N t1 delays dmax sp P t x k c its pre r post i a) {y : Nat}
    (h : a.track = some y) : y = r.block := by
  have h1 := V.ok
  unfold rowOK at h1
  simp only [Bool.and_eq_true] at h1
  have h2 := h1.1.1.1.1.1.2
  rw [h] at h2
  simpa only [Nat.beq_eq] using h2

theorem Visit.post_of_go (V : Visit N t1 delays dmax sp P t x k c its pre r post i a)
    (h : a.go = true) : post ≠ [] := V.facts.go.1 h

/-- nobody hands rolling stock over to the train -/
theorem Visit.own (K : Planned N good td t1 delays dmax sp P)
    (V : Visit N t1 delays dmax sp P t x k c its pre r post i a) (h : handers P c = []) (t0 : Int) :
    ¬ HandsOn td N.stationTable t0 t x := by
  intro h0
  obtain ⟨k0, c0, its0, hk0, rfl⟩ := K.key h0.1
  rw [V.train, handsOn_coded K hk0 V.sec] at h0
  have := mem_handers hk0 h0.1
  rw [h] at this
  cases this

theorem Planned.sameTrack_bound (K : Planned N good td t1 delays dmax sp P)
    (E : HasEarliest td t1 delays)
    (R : TableRules td N.stationTable N.pathTable t1 1 delays bound cat π) {D : Int}
    (h : sameTrack N P k k' i D = true) : (D : ℚ) ≤ bound := by
  unfold sameTrack at h
  split at h
  swap
  · cases h
  rename_i c its c' its' hk hk'
  simp only [Bool.and_eq_true] at h
  obtain ⟨⟨⟨⟨⟨⟨⟨⟨h1, h2⟩, h3⟩, h4⟩, h5⟩, h6⟩, h7⟩, h8⟩, h9⟩ := h
  obtain ⟨x, pre, r, post, a, V⟩ := K.visit_of hk h1
  obtain ⟨x', pre', r', post', b, V'⟩ := K.visit_of hk' h2
  obtain rfl : x' = x := Option.some.inj (V'.name.symm.trans V.name)
  rw [V.item, V'.item] at h9
  simp only [Bool.and_eq_true] at h9
  obtain ⟨⟨⟨⟨g1, g2⟩, g3⟩, g4⟩, g5⟩ := h9
  split at g4
  swap
  · cases g4
  rename_i y z hy hz
  split at g5
  swap
  · cases g5
  rename_i f f' hf hf'
  simp only [Bool.and_eq_true, Nat.beq_eq, decide_eq_true_eq] at g4
  obtain ⟨rfl, gb⟩ := g4
  have ey := V.track_eq hy
  have ez := V'.track_eq hz
  rw [V.name] at h8
  simp only [decide_eq_true_eq] at h8
  obtain ⟨rows, p, pre0, r0, post0, a0, mid, l, ht, hc, V0, hw⟩ := V.came K hf
  obtain ⟨rows', p', pre0', r0', post0', b0, mid', l', ht', hc', V0', hw'⟩ := V'.came K hf'
  rw [V0.item, V0'.item] at g5
  simp only [hw.next, hw'.next, Bool.and_eq_true, decide_eq_true_eq] at g5
  obtain ⟨d1, d2⟩ := g5
  have hn : (c.number : Int) ≠ c'.number := by
    intro e
    have := K.numbers hk hk' (by exact_mod_cast e)
    simp [this] at h7
  have hpair : ¬ Paired (c.number : Int) c'.number := by
    intro e
    have e1 := (V.number K).1
    have e2 := (V'.number K).1
    unfold Paired at e
    unfold paired at g3
    simp only [Bool.not_eq_true', Bool.or_eq_false_iff] at g3
    have q1 := g3.1
    have q2 := g3.2
    rw [← Bool.not_eq_true, Nat.beq_eq] at q1 q2
    omega
  have hs : ShareTrack td c.number c'.number x' (N.tag r) (N.tag r') := by
    refine ⟨hn, hpair, ⟨_, V.table K, by simp⟩, ⟨_, V'.table K, by simp⟩, V.station, V'.station, ?_, h8,
      ?_⟩
    · show nameOf N.names r.block = nameOf N.names r'.block
      rw [← ey, ← ez]
    · show nameOf N.names r.block ∉ _
      rw [← ey]
      exact gb
  have no1 := V.own K (List.isEmpty_iff.1 h5)
  have no2 := V'.own K (List.isEmpty_iff.1 h6)
  have b1 := V.between K E R (V.post_of_go g1)
  have b2 := V'.between K E R (V'.post_of_go g2)
  obtain ⟨e1, he1⟩ := E _ _ _ (V0.table K) (leaves_of_next K.data ht hc)
  obtain ⟨e2, he2⟩ := E _ _ _ (V0'.table K) (leaves_of_next K.data ht' hc')
  have u1 := (R.late _ _ _ _ (V0.table K) (leaves_of_next K.data ht hc) he1).2.1
  have u2 := (R.late _ _ _ _ (V0'.table K) (leaves_of_next K.data ht' hc') he2).2.1
  rw [Visit.early K (V0.table K) he1 V0] at u1
  rw [Visit.early K (V0'.table K) he2 V0'] at u2
  have d1' : (b0.early : ℚ) + l'.run + D ≤ a.early := by exact_mod_cast d1
  have d2' : (a0.early : ℚ) + l.run + D ≤ b.early := by exact_mod_cast d2
  rcases R.tracks _ _ _ _ _ hs with ⟨-, q⟩ | ⟨-, q⟩
  · have := q (V.goesOnFrom K h3) _ (.inr (.inl ⟨no2, rows', p', _, ht', hc', rfl⟩))
    rw [hw'.time] at this
    linarith [b1.1]
  · have := q (V'.goesOnFrom K h4) _ (.inr (.inl ⟨no1, rows, p, _, ht, hc, rfl⟩))
    rw [hw.time] at this
    linarith [b2.1]

/-- Trains `k` from station `i` and `k'` from station `j` run against each other over the same blocks:
one of them has to wait for `D` minutes. -/
def headOn (N : CodedNet) (P : Plan) (k k' i j : Nat) (D : Int) : Bool :=
  match P[k]?, P[k']? with
  | some (c, its), some (c', its') =>
    N.hasBlock c j && N.hasBlock c' i &&
    (match itemAt its j, itemAt its' i with
    | some a, some b => !paired a.train b.train &&
      (match a.prev, b.prev with
      | some f, some f' => Nat.beq f.st i && Nat.beq f'.st j && !f.blocks.isEmpty &&
        decide (f.blocks = f'.blocks.reverse) &&
        (match itemAt its i, itemAt its' j with
        | some a0, some b0 => (match a0.next, b0.next with
          | some l, some l' => decide (b0.early + D ≤ a0.early + l.run) &&
              decide (a0.early + D ≤ b0.early + l'.run)
          | _, _ => false)
        | _, _ => false)
      | _, _ => false)
    | _, _ => false)
  | _, _ => false

theorem Planned.headOn_bound (K : Planned N good td t1 delays dmax sp P)
    (E : HasEarliest td t1 delays)
    (R : TableRules td N.stationTable N.pathTable t1 1 delays bound cat π) {j : Nat} {D : Int}
    (h : N.headOn P k k' i j D = true) : (D : ℚ) ≤ bound := by
  unfold headOn at h
  split at h
  swap
  · cases h
  rename_i c its c' its' hk hk'
  simp only [Bool.and_eq_true] at h
  obtain ⟨⟨h1, h2⟩, h9⟩ := h
  obtain ⟨x, pre, r, post, a, V⟩ := K.visit_of hk h1
  obtain ⟨x', pre', r', post', b, V'⟩ := K.visit_of hk' h2
  rw [V.item, V'.item] at h9
  simp only [Bool.and_eq_true] at h9
  obtain ⟨g3, g5⟩ := h9
  split at g5
  swap
  · cases g5
  rename_i f f' hf hf'
  simp only [Bool.and_eq_true, Nat.beq_eq, decide_eq_true_eq, Bool.not_eq_true',
    List.isEmpty_eq_false_iff] at g5
  obtain ⟨⟨⟨⟨fi, fj⟩, fn⟩, fr⟩, g5⟩ := g5
  subst fi fj
  obtain ⟨rows, p, pre0, r0, post0, a0, mid, l, ht, hc, V0, hw⟩ := V.came K hf
  obtain ⟨rows', p', pre0', r0', post0', b0, mid', l', ht', hc', V0', hw'⟩ := V'.came K hf'
  rw [V0.item, V0'.item] at g5
  simp only [hw.next, hw'.next, Bool.and_eq_true, decide_eq_true_eq] at g5
  obtain ⟨d1, d2⟩ := g5
  obtain rfl : p = x' := Option.some.inj (V0.name.symm.trans V'.name)
  obtain rfl : p' = x := Option.some.inj (V0'.name.symm.trans V.name)
  have hpair : ¬ Paired (c.number : Int) c'.number := by
    intro e
    have e1 := (V.number K).1
    have e2 := (V'.number K).1
    unfold Paired at e
    unfold paired at g3
    simp only [Bool.not_eq_true', Bool.or_eq_false_iff] at g3
    have q1 := g3.1
    have q2 := g3.2
    rw [← Bool.not_eq_true, Nat.beq_eq] at q1 q2
    omega
  obtain ⟨e1, he1⟩ := E _ _ _ (V0.table K) (leaves_of_next K.data ht hc)
  obtain ⟨e2, he2⟩ := E _ _ _ (V0'.table K) (leaves_of_next K.data ht' hc')
  obtain ⟨v1, u1, -⟩ := R.late _ _ _ _ (V0.table K) (leaves_of_next K.data ht hc) he1
  obtain ⟨v2, u2, -⟩ := R.late _ _ _ _ (V0'.table K) (leaves_of_next K.data ht' hc') he2
  rw [Visit.early K (V0.table K) he1 V0] at u1 v1
  rw [Visit.early K (V0'.table K) he2 V0'] at u2 v2
  have d1' : (b0.early : ℚ) + D ≤ a0.early + l.run := by exact_mod_cast d1
  have d2' : (a0.early : ℚ) + D ≤ b0.early + l'.run := by exact_mod_cast d2
  rw [hw.pblocks, hw'.pblocks] at fr
  rw [hw.pblocks] at fn
  have hb : (mid.map N.tag).map (·.path) = ((mid'.map N.tag).map (·.path)).reverse := by
    rw [tag_paths, tag_paths, fr, List.map_reverse]
  rcases R.opposite _ _ _ _ _ _ _ _ hpair ht ht' hc hc' hb (by
    intro e
    rw [List.map_eq_nil_iff] at e
    rw [e] at fn
    exact fn rfl) with ⟨-, q⟩ | ⟨-, q⟩
  · rw [hw.time] at q
    linarith
  · rw [hw'.time] at q
    linarith

theorem of_mem_splits {α : Type} {l : List α} {y : List α × α × List α} (h : y ∈ splits l) :
    l = y.1 ++ y.2.1 :: y.2.2 := by
  induction l generalizing y with
  | nil => cases h
  | cons b l ih =>
    unfold splits at h
    rcases List.mem_cons.1 h with rfl | h
    · rfl
    · obtain ⟨z, hz, rfl⟩ := List.mem_map.1 h
      simp only [List.cons_append]
      rw [← ih hz]

/-- the row of the station -/
def atStation (N : CodedNet) (l : List CRow) (i : Nat) : Option (List CRow × CRow × List CRow) :=
  (splits l).find? fun y => isAt (N.stIx y.2.1.block) i

theorem atStation_some {l : List CRow} {y : List CRow × CRow × List CRow}
    (h : N.atStation l i = some y) : l = y.1 ++ y.2.1 :: y.2.2 ∧ N.stIx y.2.1.block = some i :=
  ⟨of_mem_splits (List.mem_of_find?_eq_some h), isAt_iff.1 (by have := List.find?_some h; exact this)⟩

/-- the switches on the way out of the station -/
def outAt (N : CodedNet) (l : List CRow) (i : Nat) : List Int := match N.atStation l i with
  | some (_, r, r1 :: post) =>
    if (r1 :: post).any fun y => N.inSt y.block then N.switchesOf r.block r1.block else []
  | _ => []

/-- the switches on the way into the station -/
def inAt (N : CodedNet) (l : List CRow) (i : Nat) : List Int := match N.atStation l i with
  | some (pre, r, _) => match pre.getLast? with
    | some r0 => if pre.any fun y => N.inSt y.block then N.switchesOf r0.block r.block else []
    | none => []
  | none => []

theorem switchesOf_spec (hn : BlockNames N.names) {a b : Nat} {z : Int} (h : z ∈ N.switchesOf a b) :
    SwitchesOf (zeros N.pathTable) (nameOf N.names a) (nameOf N.names b) (N.switchesOf a b) := by
  unfold switchesOf at h ⊢
  cases hf : N.table.find? fun x => joins x a b with
  | none => rw [hf] at h; cases h
  | some y =>
    rw [hf] at h
    simp only at h ⊢
    have hj' := List.find?_some hf
    have hj := (joins_iff hn).1 hj'
    refine .inr ⟨_, List.mem_map.2 ⟨_, List.mem_map.2 ⟨y, List.mem_of_find?_eq_some hf, rfl⟩, rfl⟩, hj,
      ?_⟩
    unfold CellSwitches
    simp only at h ⊢
    cases hc : withZero y.2.2.switches <;> rw [hc] at h <;> simp_all

theorem outAt_spec (K : Planned N good td t1 delays dmax sp P) (hk : P[k]? = some (c, its))
    (hx : N.stName i = some x) {z : Int} (h : z ∈ N.outAt (N.crows c.rows) i) :
    ∃ S, SwitchesAt td (zeros N.pathTable) c.number x "out" S ∧ z ∈ S := by
  unfold outAt at h
  split at h
  swap
  · cases h
  rename_i pre r r1 post hs
  obtain ⟨e, hi⟩ := atStation_some hs
  simp only at e hi
  split at h
  swap
  · cases h
  rename_i hany
  obtain ⟨y, hy, hyn⟩ := List.any_eq_true.1 hany
  have ht := K.table_of hk
  refine ⟨_, ⟨_, ht, .inr ⟨rfl, pre.map N.tag, N.tag r, (r1 :: post).map N.tag, by rw [e]; simp, ?_,
    .inr ⟨⟨N.tag y, List.mem_map_of_mem hy, ?_⟩, N.tag r1, post.map N.tag, rfl,
      switchesOf_spec K.net.names h⟩⟩⟩, h⟩
  · show N.station r.block = some x
    unfold station
    rw [hi]
    exact hx
  · rw [Ne, tag_station_none]
    obtain ⟨j, hj⟩ := stIx_isSome.1 hyn
    rw [hj]
    simp

theorem inAt_spec (K : Planned N good td t1 delays dmax sp P) (hk : P[k]? = some (c, its))
    (hx : N.stName i = some x) {z : Int} (h : z ∈ N.inAt (N.crows c.rows) i) :
    ∃ S, SwitchesAt td (zeros N.pathTable) c.number x "in" S ∧ z ∈ S := by
  unfold inAt at h
  split at h
  swap
  · cases h
  rename_i pre r post hs
  obtain ⟨e, hi⟩ := atStation_some hs
  simp only at e hi
  split at h
  swap
  · cases h
  rename_i r0 hr0
  split at h
  swap
  · cases h
  rename_i hany
  obtain ⟨y, hy, hyn⟩ := List.any_eq_true.1 hany
  have ht := K.table_of hk
  obtain ⟨pre', rfl⟩ := List.getLast?_eq_some_iff.1 hr0
  refine ⟨_, ⟨_, ht, .inl ⟨rfl, (pre' ++ [r0]).map N.tag, N.tag r, post.map N.tag, by rw [e]; simp, ?_,
    .inr ⟨⟨N.tag y, List.mem_map_of_mem hy, ?_⟩, pre'.map N.tag, N.tag r0, by simp,
      switchesOf_spec K.net.names h⟩⟩⟩, h⟩
  · show N.station r.block = some x
    unfold station
    rw [hi]
    exact hx
  · rw [Ne, tag_station_none]
    obtain ⟨j, hj⟩ := stIx_isSome.1 hyn
    rw [hj]
    simp

/-- Train `k` leaves station `i` over switches that train `k'` passes on the way in: one of them has to
wait for `D` minutes. -/
def crossed (N : CodedNet) (P : Plan) (k k' i : Nat) (D : Int) : Bool :=
  match P[k]?, P[k']? with
  | some (c, its), some (c', its') =>
    N.hasBlock c i && N.hasBlock c' i && !Nat.beq k k' &&
    common (N.outAt (N.crows c.rows) i) (N.inAt (N.crows c'.rows) i) &&
    (match N.stName i with
    | some x => decide (x ∉ ["KO(IC)", "KO(KS)", "KO(STM)"])
    | none => false) &&
    (match itemAt its i, itemAt its' i with
    | some a, some b => a.go && !paired a.train b.train &&
      (match b.prev with
      | some f => (match itemAt its' f.st with
        | some b0 => (match b0.next with
          | some l => decide (b0.early + l.run + D ≤ a.early + 1) &&
              decide (a.early + D ≤ b0.early + l.run + 1)
          | _ => false)
        | _ => false)
      | _ => false)
    | _, _ => false)
  | _, _ => false

theorem Planned.crossed_bound (K : Planned N good td t1 delays dmax sp P)
    (E : HasEarliest td t1 delays)
    (R : TableRules td N.stationTable N.pathTable t1 1 delays bound cat π) {D : Int}
    (h : N.crossed P k k' i D = true) : (D : ℚ) ≤ bound := by
  unfold crossed at h
  split at h
  swap
  · cases h
  rename_i c its c' its' hk hk'
  simp only [Bool.and_eq_true] at h
  obtain ⟨⟨⟨⟨⟨h1, h2⟩, h7⟩, h5⟩, h8⟩, h9⟩ := h
  obtain ⟨x, pre, r, post, a, V⟩ := K.visit_of hk h1
  obtain ⟨x', pre', r', post', b, V'⟩ := K.visit_of hk' h2
  obtain rfl : x' = x := Option.some.inj (V'.name.symm.trans V.name)
  rw [V.item, V'.item] at h9
  simp only [Bool.and_eq_true] at h9
  obtain ⟨⟨g1, g3⟩, g5⟩ := h9
  rw [V.name] at h8
  simp only [decide_eq_true_eq, List.mem_cons, List.not_mem_nil, or_false, not_or] at h8
  split at g5
  swap
  · cases g5
  rename_i f hf
  obtain ⟨rows', p', pre0', r0', post0', b0, mid', l', ht', hc', V0', hw'⟩ := V'.came K hf
  rw [V0'.item] at g5
  simp only [hw'.next, Bool.and_eq_true, decide_eq_true_eq] at g5
  obtain ⟨d1, d2⟩ := g5
  have hn : (c.number : Int) ≠ c'.number := by
    intro e
    have := K.numbers hk hk' (by exact_mod_cast e)
    simp [this] at h7
  have hpair : ¬ Paired (c.number : Int) c'.number := by
    intro e
    have e1 := (V.number K).1
    have e2 := (V'.number K).1
    unfold Paired at e
    unfold paired at g3
    simp only [Bool.not_eq_true', Bool.or_eq_false_iff] at g3
    have q1 := g3.1
    have q2 := g3.2
    rw [← Bool.not_eq_true, Nat.beq_eq] at q1 q2
    omega
  obtain ⟨z, hz, hz'⟩ := common_iff.1 h5
  obtain ⟨S, hS, hzS⟩ := outAt_spec K hk V.name hz
  obtain ⟨S', hS', hzS'⟩ := inAt_spec K hk' V.name hz'
  have hsh : ShareSwitch td N.pathTable c.number c'.number x' "out" "in" :=
    ⟨hn, hpair, by
      simp only [List.mem_cons, List.not_mem_nil, or_false, not_or]
      exact ⟨h8.1, h8.2.1⟩, fun e => absurd e h8.2.2, S, S', z, hS, hS', hzS, hzS'⟩
  have b1 := V.between K E R (V.post_of_go g1)
  obtain ⟨e2, he2⟩ := E _ _ _ (V0'.table K) (leaves_of_next K.data ht' hc')
  obtain ⟨v2, u2, -⟩ := R.late _ _ _ _ (V0'.table K) (leaves_of_next K.data ht' hc') he2
  rw [Visit.early K (V0'.table K) he2 V0'] at u2 v2
  have d1' : (b0.early : ℚ) + l'.run + D ≤ a.early + 1 := by exact_mod_cast d1
  have d2' : (a.early : ℚ) + D ≤ b0.early + l'.run + 1 := by exact_mod_cast d2
  rcases R.cross _ _ _ _ _ _ hsh ht' hc' with ⟨-, q⟩ | ⟨-, q⟩
  · rw [hw'.time] at q
    linarith [b1.1]
  · rw [hw'.time] at q
    linarith [b1.2]

end

end CodedNet

end Verif
