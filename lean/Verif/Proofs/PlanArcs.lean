import Verif.Proofs.PlanTree

/-!
# Inequalities between the departures of a coded sheet

The rules of the tables for two trains of a coded sheet, with the times of the sheet.
-/

namespace Verif

namespace CodedNet

variable {N : CodedNet} {good : List (Nat × Nat)} {td : Trains} {t1 : String}
  {delays : List (Int × ℚ)} {dmax : Int} {sp : Special} {P : Plan}
  {bound : ℚ} {cat : Cat} {π : TablePlan}

/-- the way from station `i` of the `k`-th train to the next station -/
def legOf (N : CodedNet) (P : Plan) (k i : Nat) : Option Leg := match P[k]? with
  | some (c, its) => match itemAt its i with
    | some a => match a.next with
      | some l => match itemAt its l.st with
        | some b => match b.prev with
          | some f => if N.hasBlock c l.st && Nat.beq f.st i then some l else none
          | none => none
        | none => none
      | none => none
    | none => none
  | none => none

/-- the station before station `i` of the `k`-th train, and the time of the run -/
def cameFrom (N : CodedNet) (P : Plan) (k i : Nat) : Option (Nat × Int) := match P[k]? with
  | some (c, its) => match itemAt its i with
    | some a => match a.prev with
      | some f => match itemAt its f.st with
        | some a0 => match a0.next with
          | some l => if N.hasBlock c i then some (f.st, l.run) else none
          | none => none
        | none => none
      | none => none
    | none => none
  | none => none

/-- the number of the `k`-th train -/
def numberOf (P : Plan) (k : Nat) : Int := match P[k]? with
  | some (c, _) => c.number
  | none => 0

/-- the name of the `i`-th station -/
def nameAt (N : CodedNet) (i : Nat) : String := (N.stName i).getD ""

/-- the departure of the `k`-th train from the `i`-th station -/
def depAt (N : CodedNet) (P : Plan) (π : TablePlan) (k i : Nat) : ℚ :=
  π.dep (numberOf P k) (N.nameAt i)

/-- which of two trains goes first in the `i`-th station -/
def firstAt (N : CodedNet) (P : Plan) (π : TablePlan) (k k' i : Nat) : Prop :=
  π.first (numberOf P k) (numberOf P k') (N.nameAt i)

/-- which of two trains from stations `i` and `j` goes first -/
def againstAt (N : CodedNet) (P : Plan) (π : TablePlan) (k k' i j : Nat) : Prop :=
  π.against (numberOf P k) (numberOf P k') (N.nameAt i) (N.nameAt j)

section
variable {t t' : Int} {x x' : String} {k k' : Nat} {c c' : CodedSection} {its its' : List Item}
  {pre pre' post post' : List CRow} {r r' : CRow} {i i' j : Nat} {a a' b : Item}

theorem Visit.numberOf (V : Visit N t1 delays dmax sp P t x k c its pre r post i a) :
    numberOf P k = t := by
  unfold CodedNet.numberOf
  rw [V.sec, V.train]

theorem Visit.nameAt (V : Visit N t1 delays dmax sp P t x k c its pre r post i a) :
    N.nameAt i = x := by
  unfold CodedNet.nameAt
  rw [V.name]
  rfl

theorem cameFrom_spec (K : Planned N good td t1 delays dmax sp P) {w : Int}
    (h : N.cameFrom P k i = some (j, w)) :
    ∃ c its pre r post a pre0 r0 post0 a0 rows mid l f,
      Visit N t1 delays dmax sp P (numberOf P k) (N.nameAt i) k c its pre r post i a ∧
      Visit N t1 delays dmax sp P (numberOf P k) (N.nameAt j) k c its pre0 r0 post0 j a0 ∧
      TableOf td (numberOf P k) rows ∧ Consecutive rows (N.nameAt j) (N.nameAt i) (mid.map N.tag) ∧
      Went N t1 j i mid r a0 a l f ∧ l.run = w := by
  unfold cameFrom at h
  split at h
  swap
  · cases h
  rename_i c its hk
  split at h
  swap
  · cases h
  rename_i a ha
  split at h
  swap
  · cases h
  rename_i f hf
  split at h
  swap
  · cases h
  rename_i a0 ha0
  split at h
  swap
  · cases h
  rename_i l hl
  split at h
  swap
  · cases h
  rename_i hb
  obtain ⟨x, pre, r, post, a', V⟩ := K.visit_of hk hb
  obtain rfl : a' = a := Option.some.inj (V.item.symm.trans ha)
  obtain ⟨rows, p, pre0, r0, post0, a0', mid, l', ht, hc, V0, hw⟩ := V.came K hf
  obtain rfl : a0' = a0 := Option.some.inj (V0.item.symm.trans ha0)
  obtain rfl : l' = l := Option.some.inj (hw.next.symm.trans hl)
  simp only [Option.some.injEq, Prod.mk.injEq] at h
  obtain ⟨rfl, rfl⟩ := h
  have e1 := V.nameAt
  have e2 := V0.nameAt
  have e3 := V.numberOf
  rw [← e3] at V V0 ht
  rw [← e1] at V hc
  rw [← e2] at V0 hc
  exact ⟨c, its, pre, r, post, a', pre0, r0, post0, a0', rows, mid, l', f, V, V0, ht, hc, hw, rfl⟩

theorem legOf_spec (K : Planned N good td t1 delays dmax sp P) {l : Leg}
    (h : N.legOf P k i = some l) :
    ∃ c its pre r post a pre0 r0 post0 a0 rows mid f,
      Visit N t1 delays dmax sp P (numberOf P k) (N.nameAt l.st) k c its pre r post l.st a ∧
      Visit N t1 delays dmax sp P (numberOf P k) (N.nameAt i) k c its pre0 r0 post0 i a0 ∧
      TableOf td (numberOf P k) rows ∧
      Consecutive rows (N.nameAt i) (N.nameAt l.st) (mid.map N.tag) ∧
      Went N t1 i l.st mid r a0 a l f := by
  unfold legOf at h
  split at h
  swap
  · cases h
  rename_i c its hk
  split at h
  swap
  · cases h
  rename_i a0 ha0
  split at h
  swap
  · cases h
  rename_i l0 hl
  split at h
  swap
  · cases h
  rename_i b hb
  split at h
  swap
  · cases h
  rename_i f hf
  split at h
  swap
  · cases h
  rename_i hc
  simp only [Bool.and_eq_true, Nat.beq_eq] at hc
  obtain ⟨hc, rfl⟩ := hc
  cases h
  have hcf : N.cameFrom P k l.st = some (f.st, l.run) := by
    unfold cameFrom
    rw [hk]
    simp only [hb, hf, ha0, hl, hc, if_true]
  obtain ⟨c1, its1, pre, r, post, a1, pre0, r0, post0, a01, rows, mid, l1, f1, V, V0, ht, hcc, hw, e⟩ :=
    cameFrom_spec K hcf
  have h1 := V.sec.symm.trans hk
  simp only [Option.some.injEq, Prod.mk.injEq] at h1
  obtain ⟨rfl, rfl⟩ := h1
  obtain rfl : a01 = a0 := Option.some.inj (V0.item.symm.trans ha0)
  obtain rfl : l1 = l := Option.some.inj (hw.next.symm.trans hl)
  exact ⟨c1, its1, pre, r, post, a1, pre0, r0, post0, a01, rows, mid, f1, V, V0, ht, hcc, hw⟩

/-- the trains are different, and not numbered `n` and `10 n + 9` -/
def unlike (P : Plan) (k k' : Nat) : Bool := match P[k]?, P[k']? with
  | some (c, _), some (c', _) => !Nat.beq k k' && !paired c.number c'.number
  | _, _ => false

theorem unlike_spec (K : Planned N good td t1 delays dmax sp P) (h : unlike P k k' = true) :
    numberOf P k ≠ numberOf P k' ∧ ¬ Paired (numberOf P k) (numberOf P k') := by
  unfold unlike at h
  unfold numberOf
  split at h
  swap
  · cases h
  rename_i c its c' its' hk hk'
  rw [hk, hk']
  simp only [Bool.and_eq_true] at h
  constructor
  · intro e
    simp only at e
    have := K.numbers hk hk' (by exact_mod_cast e)
    simp [this] at h
  · intro e
    have g3 := h.2
    unfold Paired at e
    unfold paired at g3
    simp only [Bool.not_eq_true', Bool.or_eq_false_iff] at g3
    have q1 := g3.1
    have q2 := g3.2
    rw [← Bool.not_eq_true, Nat.beq_eq] at q1 q2
    simp only at e
    omega

/-- trains over the same blocks from station `i`: the headways in both orders -/
def follows (N : CodedNet) (sp : Special) (P : Plan) (k k' i : Nat) : Option (Int × Int) :=
  match N.legOf P k i, N.legOf P k' i with
  | some l, some l' =>
    if unlike P k k' && Nat.beq l.st l'.st && decide (l.blocks = l'.blocks) then
      let n := if hasPair sp.k1 i l.st || hasPair sp.k1 l.st i then 1 else 2
      some (roundTenths (headwayTenths n l.times l'.times),
        roundTenths (headwayTenths n l'.times l.times))
    else none
  | _, _ => none

theorem follows_spec (K : Planned N good td t1 delays dmax sp P)
    (R : TableRules td N.stationTable N.pathTable t1 1 delays bound cat π) {w w' : Int}
    (h : N.follows sp P k k' i = some (w, w')) :
    (N.firstAt P π k k' i ∧ N.depAt P π k i + w ≤ N.depAt P π k' i) ∨
    (N.firstAt P π k' k i ∧ N.depAt P π k' i + w' ≤ N.depAt P π k i) := by
  unfold follows at h
  split at h
  swap
  · cases h
  rename_i l l' hl hl'
  split at h
  swap
  · cases h
  rename_i hcond
  simp only [Bool.and_eq_true, Nat.beq_eq, decide_eq_true_eq] at hcond
  obtain ⟨⟨hu, hst⟩, hb⟩ := hcond
  obtain ⟨hne, -⟩ := unlike_spec K hu
  obtain ⟨c, its, pre, r, post, a, pre0, r0, post0, a0, rows, mid, f, V, V0, ht, hc, hw⟩ :=
    legOf_spec K hl
  obtain ⟨c', its', pre', r', post', a', pre0', r0', post0', a0', rows', mid', f', V', V0', ht', hc',
    hw'⟩ := legOf_spec K hl'
  rw [← hst] at hc'
  have hp : (mid.map N.tag).map (·.path) = (mid'.map N.tag).map (·.path) := by
    rw [tag_paths, tag_paths, ← hw.blocks, ← hw'.blocks, hb]
  have hk := headwayK_coded K V0.name V.name
  simp only [Option.some.injEq, Prod.mk.injEq] at h
  obtain ⟨rfl, rfl⟩ := h
  have key := R.following _ _ _ _ _ _ _ _ hne ht ht' hc hc' hp
  rw [hw.minutes, hw'.minutes, headway_tenths, headway_tenths, roundIf_tenths, roundIf_tenths, hk] at key
  exact key

/-- trains to the same track of station `i` -/
def shares (N : CodedNet) (P : Plan) (k k' i : Nat) : Bool := match P[k]?, P[k']? with
  | some (c, its), some (c', its') =>
    unlike P k k' && N.hasBlock c i && N.hasBlock c' i &&
    (match N.stName i with
    | some x => decide (x ∉ ["KO(KS)", "KO(IC)"])
    | none => false) &&
    (match itemAt its i, itemAt its' i with
    | some a, some b => (match a.track, b.track with
      | some y, some z => Nat.beq y z && decide (nameOf N.names y ∉ blocksLeftOut)
      | _, _ => false)
    | _, _ => false)
  | _, _ => false

/-- when the `k`-th train comes to station `i`, if it does not get rolling stock there: from which
station and after which time; or the earliest departure, if it begins there -/
def comesBy (N : CodedNet) (P : Plan) (k i : Nat) : Option (Option Nat × Int) := match P[k]? with
  | some (c, its) =>
    if (handers P c).isEmpty && N.hasBlock c i then
      match itemAt its i with
      | some a => match a.prev with
        | some f => match N.cameFrom P k i with
          | some (_, w) => some (some f.st, w)
          | none => none
        | none => if a.go then some (none, a.early) else none
      | none => none
    else none
  | none => none

/-- the departure from station `j`, or time `0` -/
def depOr (N : CodedNet) (P : Plan) (π : TablePlan) (k : Nat) (o : Option Nat) : ℚ := match o with
  | some j => N.depAt P π k j
  | none => 0

/-- the `k`-th train does not end in station `i` -/
def goesOnAt (N : CodedNet) (P : Plan) (k i : Nat) : Bool := match P[k]? with
  | some (c, _) => N.goesOnB c i
  | none => false

theorem goesOnAt_spec (K : Planned N good td t1 delays dmax sp P)
    (V : Visit N t1 delays dmax sp P t x k c its pre r post i a) (h : N.goesOnAt P k i = true) :
    GoesOnFrom td N.stationTable t x := by
  unfold goesOnAt at h
  rw [V.sec] at h
  exact V.goesOnFrom K h

theorem comesBy_spec (K : Planned N good td t1 delays dmax sp P) (E : HasEarliest td t1 delays)
    {o : Option Nat} {w : Int} (h : N.comesBy P k i = some (o, w)) :
    StockComes td N.stationTable t1 1 delays π.dep (numberOf P k) (N.nameAt i)
      (N.depOr P π k o + w) := by
  unfold comesBy at h
  split at h
  swap
  · cases h
  rename_i c its hk
  split at h
  swap
  · cases h
  rename_i hcond
  simp only [Bool.and_eq_true, List.isEmpty_iff] at hcond
  obtain ⟨hh, hb⟩ := hcond
  split at h
  swap
  · cases h
  rename_i a ha
  split at h
  · rename_i f hf
    split at h
    swap
    · cases h
    rename_i j w' hcf
    simp only [Option.some.injEq, Prod.mk.injEq] at h
    obtain ⟨rfl, rfl⟩ := h
    obtain ⟨c1, its1, pre, r, post, a1, pre0, r0, post0, a0, rows, mid, l, f1, V, V0, ht, hc, hw, rfl⟩ :=
      cameFrom_spec K hcf
    have h1 := V.sec.symm.trans hk
    simp only [Option.some.injEq, Prod.mk.injEq] at h1
    obtain ⟨rfl, rfl⟩ := h1
    obtain rfl : a1 = a := Option.some.inj (V.item.symm.trans ha)
    obtain rfl : f1 = f := Option.some.inj (hw.prev.symm.trans hf)
    have e := hw.pst
    subst e
    refine .inr (.inl ⟨V.own K hh, rows, _, _, ht, hc, ?_⟩)
    rw [hw.time]
    rfl
  · rename_i hf
    split at h
    swap
    · cases h
    rename_i hgo
    simp only [Option.some.injEq, Prod.mk.injEq] at h
    obtain ⟨rfl, rfl⟩ := h
    obtain ⟨x, pre, r, post, a1, V⟩ := K.visit_of hk hb
    obtain rfl : a1 = a := Option.some.inj (V.item.symm.trans ha)
    have e1 := V.nameAt
    have e3 := V.numberOf
    rw [e1, e3]
    have hn : N.lastSt pre = none := by
      cases hl : N.lastSt pre with
      | none => rfl
      | some y =>
        obtain ⟨r0, mid⟩ := y
        obtain ⟨i0, a0, l, f, -, -, hw, -⟩ := V.went hl
        rw [hw.prev] at hf
        cases hf
    have hl := V.leaves K (V.post_of_go hgo)
    obtain ⟨e, he⟩ := E _ _ _ (V.table K) hl
    have hee := Visit.early K (V.table K) he V
    refine .inr (.inr ⟨V.own K hh, _, N.tag r, V.table K, ⟨pre.map N.tag, post.map N.tag, rfl, V.station,
      ?_⟩, ?_⟩)
    · intro q hq
      obtain ⟨q', hq', rfl⟩ := List.mem_map.1 hq
      exact tag_station_none.2 (lastSt_none hn q' hq')
    · show Earliest _ _ _ _ _ (0 + (a1.early : ℚ))
      rw [zero_add, ← hee]
      exact he

/-- from which station and after which time the `k`-th train brings the rolling stock of the `k'`-th to
station `i` -/
def bringsTo (N : CodedNet) (P : Plan) (k k' i : Nat) : Option (Nat × Int) := match P[k]?, P[k']? with
  | some (c, _), some (c', _) =>
    if handsOn c c' && isAt (N.firstStation c') i then N.cameFrom P k i else none
  | _, _ => none

theorem bringsTo_spec (K : Planned N good td t1 delays dmax sp P) {w : Int}
    (h : N.bringsTo P k k' i = some (j, w)) :
    StockComes td N.stationTable t1 1 delays π.dep (numberOf P k') (N.nameAt i)
      (N.depAt P π k j + w) := by
  unfold bringsTo at h
  split at h
  swap
  · cases h
  rename_i c its c' its' hk hk'
  rw [Option.ite_none_right_eq_some] at h
  obtain ⟨hcond, hcf⟩ := h
  simp only [Bool.and_eq_true] at hcond
  obtain ⟨c1, its1, pre, r, post, a1, pre0, r0, post0, a0, rows, mid, l, f1, V, V0, ht, hc, hw, rfl⟩ :=
    cameFrom_spec K hcf
  have h1 := V.sec.symm.trans hk
  simp only [Option.some.injEq, Prod.mk.injEq] at h1
  obtain ⟨rfl, rfl⟩ := h1
  have ho := (handsOn_coded K hk hk').2 ⟨hcond.1, i, isAt_iff.1 hcond.2, V.name⟩
  rw [← V.train] at ho
  have e' : numberOf P k' = c'.number := by
    unfold numberOf
    rw [hk']
  rw [← e'] at ho
  refine .inl ⟨_, rows, _, _, ho, ht, hc, ?_⟩
  rw [hw.time]
  rfl

theorem shares_spec (K : Planned N good td t1 delays dmax sp P)
    (R : TableRules td N.stationTable N.pathTable t1 1 delays bound cat π)
    (h : N.shares P k k' i = true) :
    (N.firstAt P π k k' i ∧ (N.goesOnAt P k i = true → ∀ a,
      StockComes td N.stationTable t1 1 delays π.dep (numberOf P k') (N.nameAt i) a →
      N.depAt P π k i ≤ a)) ∨
    (N.firstAt P π k' k i ∧ (N.goesOnAt P k' i = true → ∀ a,
      StockComes td N.stationTable t1 1 delays π.dep (numberOf P k) (N.nameAt i) a →
      N.depAt P π k' i ≤ a)) := by
  unfold shares at h
  split at h
  swap
  · cases h
  rename_i c its c' its' hk hk'
  simp only [Bool.and_eq_true] at h
  obtain ⟨⟨⟨⟨h7, h1⟩, h2⟩, h8⟩, g4⟩ := h
  obtain ⟨hne, hpair⟩ := unlike_spec K h7
  obtain ⟨x, pre, r, post, a, V⟩ := K.visit_of hk h1
  obtain ⟨x', pre', r', post', b, V'⟩ := K.visit_of hk' h2
  obtain rfl : x' = x := Option.some.inj (V'.name.symm.trans V.name)
  rw [V.item, V'.item] at g4
  simp only at g4
  split at g4
  swap
  · cases g4
  rename_i y z hy hz
  simp only [Bool.and_eq_true, Nat.beq_eq, decide_eq_true_eq] at g4
  obtain ⟨rfl, gb⟩ := g4
  have ey := V.track_eq hy
  have ez := V'.track_eq hz
  rw [V.name] at h8
  simp only [decide_eq_true_eq] at h8
  have e1 := V.nameAt
  have e2 := V.numberOf
  have e3 := V'.numberOf
  rw [e2, e3] at hne hpair
  have hs : ShareTrack td c.number c'.number x' (N.tag r) (N.tag r') := by
    refine ⟨hne, hpair, ⟨_, V.table K, by simp⟩, ⟨_, V'.table K, by simp⟩, V.station, V'.station, ?_, h8,
      ?_⟩
    · show nameOf N.names r.block = nameOf N.names r'.block
      rw [← ey, ← ez]
    · show nameOf N.names r.block ∉ _
      rw [← ey]
      exact gb
  unfold firstAt depAt
  rcases R.tracks _ _ _ _ _ hs with ⟨q1, q2⟩ | ⟨q1, q2⟩
  · left
    rw [e1, e2, e3]
    exact ⟨q1, fun hg => q2 (goesOnAt_spec K V hg)⟩
  · right
    rw [e1, e2, e3]
    exact ⟨q1, fun hg => q2 (goesOnAt_spec K V' hg)⟩

/-- the rules on switches apply to the train when it leaves station `i` -/
def clearOut (N : CodedNet) (l : List CRow) (i : Nat) : Bool := match N.stName i with
  | some x => decide (x ∉ ["KO(IC)", "KO(KS)"]) && (decide (x ≠ "KO(STM)") ||
      (match N.atStation l i with
      | some (_, _, post) => (match post.find? fun y => N.inSt y.block with
        | some y => decide (N.station y.block ≠ some "KO")
        | none => true)
      | none => false))
  | none => false

/-- the rules on switches apply to the train when it comes to station `i` -/
def clearIn (N : CodedNet) (l : List CRow) (i : Nat) : Bool := match N.stName i with
  | some x => decide (x ∉ ["KO(IC)", "KO(KS)"]) && (decide (x ≠ "KO(STM)") ||
      (match N.atStation l i with
      | some (pre, _, _) => (match N.lastSt pre with
        | some (y, _) => decide (N.station y.block ≠ some "KO")
        | none => true)
      | none => false))
  | none => false

theorem tag_station {r : CRow} : (N.tag r).station = N.station r.block := rfl

theorem clearOut_spec (K : Planned N good td t1 delays dmax sp P) (hk : P[k]? = some (c, its))
    (hx : N.stName i = some x) (h : N.clearOut (N.crows c.rows) i = true) :
    x ∉ ["KO(IC)", "KO(KS)"] ∧ (x = "KO(STM)" → ¬ ToOrFromKO td c.number "out") := by
  unfold clearOut at h
  rw [hx] at h
  simp only [Bool.and_eq_true, Bool.or_eq_true, decide_eq_true_eq] at h
  obtain ⟨h1, h2⟩ := h
  refine ⟨h1, fun e hko => ?_⟩
  rcases h2 with h2 | h2
  · exact h2 e
  rcases hko with ⟨q, -⟩ | ⟨-, b, rows, mid, ht, ⟨A, q1, q2, B, hrows, hs1, hs2, hmid⟩, -⟩
  · exact absurd q (by decide)
  split at h2
  swap
  · cases h2
  rename_i pre r post hat
  obtain ⟨hsp, hix⟩ := atStation_some hat
  simp only at hsp hix
  have ee := ht.unique (K.table_of hk)
  have hst : (N.tag r).station = some "KO(STM)" := by
    rw [tag_station]
    unfold station
    rw [hix, ← e]
    exact hx
  obtain ⟨-, -, e3⟩ := once_split (K.once ht) (pre := A) (r := q1) (post := mid ++ q2 :: B)
    (by rw [hrows]; simp) (pre' := pre.map N.tag) (r' := N.tag r) (post' := post.map N.tag)
    (by rw [ee, hsp]; simp) hs1 hst
  obtain ⟨m', B', hB, hm', hB'⟩ := List.map_eq_append_iff.1 e3.symm
  obtain ⟨y, B2, rfl, hy, -⟩ := List.map_eq_cons_iff.1 hB'
  have hfind : post.find? (fun y => N.inSt y.block) = some y := by
    rw [List.find?_eq_some_iff_append]
    refine ⟨?_, m', B2, hB, fun a ha => ?_⟩
    · by_contra hc
      rw [← hy, tag_station_none.2 (stIx_none.2 (by simpa using hc))] at hs2
      cases hs2
    · have := hmid (N.tag a) (by rw [← hm']; exact List.mem_map_of_mem ha)
      simpa using stIx_none.1 (tag_station_none.1 this)
  rw [hfind] at h2
  simp only [decide_eq_true_eq] at h2
  apply h2
  rw [← tag_station, hy]
  exact hs2

theorem clearIn_spec (K : Planned N good td t1 delays dmax sp P) (hk : P[k]? = some (c, its))
    (hx : N.stName i = some x) (h : N.clearIn (N.crows c.rows) i = true) :
    x ∉ ["KO(IC)", "KO(KS)"] ∧ (x = "KO(STM)" → ¬ ToOrFromKO td c.number "in") := by
  unfold clearIn at h
  rw [hx] at h
  simp only [Bool.and_eq_true, Bool.or_eq_true, decide_eq_true_eq] at h
  obtain ⟨h1, h2⟩ := h
  refine ⟨h1, fun e hko => ?_⟩
  rcases h2 with h2 | h2
  · exact h2 e
  rcases hko with ⟨-, b, rows, mid, ht, ⟨A, q1, q2, B, hrows, hs1, hs2, hmid⟩, -⟩ | ⟨q, -⟩
  swap
  · exact absurd q (by decide)
  split at h2
  swap
  · cases h2
  rename_i pre r post hat
  obtain ⟨hsp, hix⟩ := atStation_some hat
  simp only at hsp hix
  have ee := ht.unique (K.table_of hk)
  have hst : (N.tag r).station = some "KO(STM)" := by
    rw [tag_station]
    unfold station
    rw [hix, ← e]
    exact hx
  obtain ⟨e1, -, -⟩ := once_split (K.once ht) (pre := A ++ q1 :: mid) (r := q2) (post := B)
    (by rw [hrows]) (pre' := pre.map N.tag) (r' := N.tag r) (post' := post.map N.tag)
    (by rw [ee, hsp]; simp) hs2 hst
  obtain ⟨A', m0, hA, -, hm0⟩ := List.map_eq_append_iff.1 e1.symm
  obtain ⟨y, m', rfl, hy, hm'⟩ := List.map_eq_cons_iff.1 hm0
  split at h2
  · rename_i y' mid' hl
    obtain ⟨A2, hA2, hin, hm2⟩ := lastSt_some hl
    simp only [decide_eq_true_eq] at h2
    apply h2
    have hyy : N.tag y' = q1 := by
      have hne : (N.tag y').station ≠ none := by
        rw [Ne, tag_station_none]
        obtain ⟨j, hj⟩ := stIx_isSome.1 hin
        rw [hj]
        simp
      have k1 : A ++ q1 :: mid = A2.map N.tag ++ N.tag y' :: mid'.map N.tag := by
        rw [e1, hA2]
        simp
      have key : ∀ {A B : List Row} {a b : Row} {m n : List Row}, A ++ a :: m = B ++ b :: n →
          a.station ≠ none → b.station ≠ none → (∀ r ∈ m, r.station = none) →
          (∀ r ∈ n, r.station = none) → a = b := by
        intro A B a b m n h ha hb hm hn
        rw [List.append_eq_append_iff] at h
        rcases h with ⟨l, rfl, h⟩ | ⟨l, rfl, h⟩
        · cases l with
          | nil =>
            simp only [List.nil_append, List.cons.injEq] at h
            exact h.1
          | cons d l =>
            simp only [List.cons_append, List.cons.injEq] at h
            exact absurd (hm b (by rw [h.2]; simp)) hb
        · cases l with
          | nil =>
            simp only [List.nil_append, List.cons.injEq] at h
            exact h.1.symm
          | cons d l =>
            simp only [List.cons_append, List.cons.injEq] at h
            exact absurd (hn a (by rw [h.2]; simp)) ha
      refine (key k1 (by rw [hs1]; simp) hne hmid fun q hq => ?_).symm
      obtain ⟨q', hq', rfl⟩ := List.mem_map.1 hq
      exact tag_station_none.2 (hm2 q' hq')
    rw [← tag_station, hyy]
    exact hs1
  · rename_i hl
    have := lastSt_none hl y (by rw [hA]; simp)
    rw [← hy, tag_station_none.2 this] at hs1
    cases hs1

/-- the `k`-th train leaves station `i` over switches that the other one passes on the way in; where
that one comes from, and the time of its run -/
def crosses (N : CodedNet) (P : Plan) (k k' i : Nat) : Option (Nat × Int) := match P[k]?, P[k']? with
  | some (c, _), some (c', _) =>
    if unlike P k k' && common (N.outAt (N.crows c.rows) i) (N.inAt (N.crows c'.rows) i) &&
      (N.clearOut (N.crows c.rows) i && N.clearIn (N.crows c'.rows) i) then N.cameFrom P k' i
    else none
  | _, _ => none

theorem crosses_spec (K : Planned N good td t1 delays dmax sp P)
    (R : TableRules td N.stationTable N.pathTable t1 1 delays bound cat π) {w : Int}
    (h : N.crosses P k k' i = some (j, w)) :
    (N.againstAt P π k k' i j ∧ N.depAt P π k i + 1 ≤ N.depAt P π k' j + w) ∨
    (N.againstAt P π k' k j i ∧ N.depAt P π k' j + w + 1 ≤ N.depAt P π k i) := by
  unfold crosses at h
  split at h
  swap
  · cases h
  rename_i c its c' its' hk hk'
  rw [Option.ite_none_right_eq_some] at h
  obtain ⟨hcond, h⟩ := h
  simp only [Bool.and_eq_true] at hcond
  obtain ⟨⟨h7, h5⟩, h8⟩ := hcond
  obtain ⟨hne, hpair⟩ := unlike_spec K h7
  obtain ⟨c1, its1, pre, r, post, a, pre0, r0, post0, a0, rows, mid, l, f, V, V0, ht, hc, hw, rfl⟩ :=
    cameFrom_spec K h
  have h1 := V.sec.symm.trans hk'
  simp only [Option.some.injEq, Prod.mk.injEq] at h1
  obtain ⟨rfl, rfl⟩ := h1
  obtain ⟨h8, h8'⟩ := h8
  obtain ⟨m1, m2⟩ := clearOut_spec K hk V.name h8
  obtain ⟨-, m2'⟩ := clearIn_spec K hk' V.name h8'
  obtain ⟨z, hz, hz'⟩ := common_iff.1 h5
  obtain ⟨S, hS, hzS⟩ := outAt_spec K hk V.name hz
  obtain ⟨S', hS', hzS'⟩ := inAt_spec K hk' V.name hz'
  have e : numberOf P k = c.number := by
    unfold numberOf
    rw [hk]
  rw [← e] at hS
  rw [← V.train] at hS'
  rw [← e] at m2
  rw [← V.train] at m2'
  have hsh : ShareSwitch td N.pathTable (numberOf P k) (numberOf P k') (N.nameAt i) "out" "in" :=
    ⟨hne, hpair, m1, fun e => ⟨m2 e, m2' e⟩, S, S', z, hS, hS', hzS, hzS'⟩
  have key := R.cross _ _ _ _ _ _ hsh ht hc
  rw [hw.time] at key
  exact key

/-- trains that leave station `i` over common switches -/
def departs (N : CodedNet) (P : Plan) (k k' i : Nat) : Bool := match P[k]?, P[k']? with
  | some (c, _), some (c', _) =>
    unlike P k k' && common (N.outAt (N.crows c.rows) i) (N.outAt (N.crows c'.rows) i) &&
    (N.clearOut (N.crows c.rows) i && N.clearOut (N.crows c'.rows) i)
  | _, _ => false

theorem departs_spec (K : Planned N good td t1 delays dmax sp P)
    (R : TableRules td N.stationTable N.pathTable t1 1 delays bound cat π)
    (h : N.departs P k k' i = true) :
    (N.firstAt P π k k' i ∧ N.depAt P π k i + 1 ≤ N.depAt P π k' i) ∨
    (N.firstAt P π k' k i ∧ N.depAt P π k' i + 1 ≤ N.depAt P π k i) := by
  unfold departs at h
  split at h
  swap
  · cases h
  rename_i c its c' its' hk hk'
  simp only [Bool.and_eq_true] at h
  obtain ⟨⟨h7, h5⟩, h8⟩ := h
  obtain ⟨hne, hpair⟩ := unlike_spec K h7
  obtain ⟨h8, h8'⟩ := h8
  obtain ⟨x, hx⟩ : ∃ x, N.stName i = some x := by
    cases hx : N.stName i with
    | some x => exact ⟨x, rfl⟩
    | none =>
      unfold clearOut at h8
      rw [hx] at h8
      cases h8
  obtain ⟨m1, m2⟩ := clearOut_spec K hk hx h8
  obtain ⟨-, m2'⟩ := clearOut_spec K hk' hx h8'
  obtain ⟨z, hz, hz'⟩ := common_iff.1 h5
  obtain ⟨S, hS, hzS⟩ := outAt_spec K hk hx hz
  obtain ⟨S', hS', hzS'⟩ := outAt_spec K hk' hx hz'
  have e : numberOf P k = c.number := by
    unfold numberOf
    rw [hk]
  have e' : numberOf P k' = c'.number := by
    unfold numberOf
    rw [hk']
  have ex : N.nameAt i = x := by
    unfold nameAt
    rw [hx]
    rfl
  rw [← e] at hS
  rw [← e'] at hS'
  rw [← e] at m2
  rw [← e'] at m2'
  have hsh : ShareSwitch td N.pathTable (numberOf P k) (numberOf P k') x "out" "out" :=
    ⟨hne, hpair, m1, fun e => ⟨m2 e, m2' e⟩, S, S', z, hS, hS', hzS, hzS'⟩
  have key := R.bothLeave _ _ _ hsh
  unfold firstAt depAt
  rw [ex]
  exact key

/-- the `k`-th train hands its rolling stock over to the `k'`-th one in station `i`: where it comes
from, and the time of the run and the turnaround -/
def handsTo (N : CodedNet) (P : Plan) (k k' i : Nat) : Option (Nat × Int) := match P[k]?, P[k']? with
  | some (c, _), some (c', _) =>
    if handsOn c c' && isAt (N.firstStation c') i then
      match N.cameFrom P k i, (N.crows c'.rows).head? with
      | some (j, w), some y => match y.raw.turnaround with
        | some v => some (j, w + v.floor)
        | none => none
      | _, _ => none
    else none
  | _, _ => none

theorem handsTo_spec (K : Planned N good td t1 delays dmax sp P)
    (R : TableRules td N.stationTable N.pathTable t1 1 delays bound cat π) {w : Int}
    (h : N.handsTo P k k' i = some (j, w)) : N.depAt P π k j + w ≤ N.depAt P π k' i := by
  unfold handsTo at h
  split at h
  swap
  · cases h
  rename_i c its c' its' hk hk'
  rw [Option.ite_none_right_eq_some] at h
  obtain ⟨hcond, h⟩ := h
  simp only [Bool.and_eq_true] at hcond
  split at h
  swap
  · cases h
  rename_i j' w' y hcf hy
  split at h
  swap
  · cases h
  rename_i v hv
  simp only [Option.some.injEq, Prod.mk.injEq] at h
  obtain ⟨rfl, rfl⟩ := h
  obtain ⟨c1, its1, pre, r, post, a1, pre0, r0, post0, a0, rows, mid, l, f1, V, V0, ht, hc, hw, rfl⟩ :=
    cameFrom_spec K hcf
  have h1 := V.sec.symm.trans hk
  simp only [Option.some.injEq, Prod.mk.injEq] at h1
  obtain ⟨rfl, rfl⟩ := h1
  have ho := (handsOn_coded K hk hk').2 ⟨hcond.1, i, isAt_iff.1 hcond.2, V.name⟩
  rw [← V.train] at ho
  have e' : numberOf P k' = c'.number := by
    unfold numberOf
    rw [hk']
  rw [← e'] at ho
  have ht' := K.table_of hk'
  rw [← e'] at ht'
  have key := R.stock _ _ _ _ _ _ _ _ _ ho ht ht' hc (by rw [List.head?_map, hy]; rfl) hv
  rw [hw.time] at key
  have hfl : ((v.floor : Int) : ℚ) ≤ v := Rat.floor_le v
  unfold depAt
  push_cast
  linarith

/-- the time that the `k`-th train needs for the run to station `i` and the stop there -/
def runTo (N : CodedNet) (P : Plan) (k i : Nat) : Option (Nat × Int) := match P[k]? with
  | some (c, its) => match itemAt its i with
    | some a => if a.go then
        match N.cameFrom P k i, N.atStation (N.crows c.rows) i with
        | some (j, w), some (_, r, _) => some (j, w + roundTenths (tenths r.pass))
        | _, _ => none
      else none
    | none => none
  | none => none

theorem runTo_spec (K : Planned N good td t1 delays dmax sp P)
    (R : TableRules td N.stationTable N.pathTable t1 1 delays bound cat π) {w : Int}
    (h : N.runTo P k i = some (j, w)) : N.depAt P π k j + w ≤ N.depAt P π k i := by
  unfold runTo at h
  split at h
  swap
  · cases h
  rename_i c its hk
  split at h
  swap
  · cases h
  rename_i a ha
  split at h
  swap
  · cases h
  rename_i hgo
  split at h
  swap
  · cases h
  rename_i j' w' A rr B hcf hat
  simp only [Option.some.injEq, Prod.mk.injEq] at h
  obtain ⟨rfl, rfl⟩ := h
  obtain ⟨c1, its1, pre, r, post, a1, pre0, r0, post0, a0, rows, mid, l, f1, V, V0, ht, hc, hw, rfl⟩ :=
    cameFrom_spec K hcf
  have h1 := V.sec.symm.trans hk
  simp only [Option.some.injEq, Prod.mk.injEq] at h1
  obtain ⟨rfl, rfl⟩ := h1
  obtain rfl : a1 = a := Option.some.inj (V.item.symm.trans ha)
  obtain ⟨hsp, hix⟩ := atStation_some hat
  simp only at hsp hix
  have hmem : N.tag rr ∈ rows := by
    have e := ht.unique (V.table K)
    have e2 : (N.crows c1.rows).map N.tag = rows := by
      rw [e, V.split]
      simp
    rw [← e2, hsp]
    simp
  have hst : (N.tag rr).station = some (N.nameAt i) := by
    show N.station rr.block = _
    unfold station
    rw [hix]
    exact V.name
  have hrow := V.row_unique K ht hmem hst
  have hp : roundIf 1 ((N.tag rr).passingTime.getD 0) = (roundTenths (tenths rr.pass) : ℚ) := by
    have h2 : isTenths rr.pass = true := by
      have h3 := V.facts.tenth
      have h4 : (N.tag rr).passingTime = (N.tag r).passingTime := by rw [hrow]
      have h5 : rr.pass = r.pass := h4
      rw [h5]
      exact h3
    have : (N.tag rr).passingTime.getD 0 = (tenths rr.pass : ℚ) / 10 := tenths_eq h2
    rw [this, roundIf_tenths]
  have key := R.runs _ _ _ _ _ _ ht hc hmem hst (V.leaves K (V.post_of_go hgo))
  rw [hw.time, hp] at key
  unfold depAt
  push_cast
  linarith

/-- the earliest departure of the `k`-th train from station `i` -/
def earlyAt (N : CodedNet) (P : Plan) (k i : Nat) : Option Int := match P[k]? with
  | some (c, its) => match itemAt its i with
    | some a => if a.go && N.hasBlock c i then some a.early else none
    | none => none
  | none => none

theorem earlyAt_spec (K : Planned N good td t1 delays dmax sp P) (E : HasEarliest td t1 delays)
    (R : TableRules td N.stationTable N.pathTable t1 1 delays bound cat π) {e : Int}
    (h : N.earlyAt P k i = some e) :
    (e : ℚ) ≤ N.depAt P π k i ∧ N.depAt P π k i ≤ e + bound := by
  unfold earlyAt at h
  split at h
  swap
  · cases h
  rename_i c its hk
  split at h
  swap
  · cases h
  rename_i a ha
  split at h
  swap
  · cases h
  rename_i hcond
  simp only [Bool.and_eq_true] at hcond
  cases h
  obtain ⟨x, pre, r, post, a1, V⟩ := K.visit_of hk hcond.2
  obtain rfl : a1 = a := Option.some.inj (V.item.symm.trans ha)
  have := V.between K E R (V.post_of_go hcond.1)
  unfold depAt
  rw [V.nameAt, V.numberOf]
  exact this

end

/-! ## Proofs by cases -/

/-- something to decide: which of two trains goes first in station `i`; which of two trains from
stations `i` and `j` -/
inductive Choice where
  | first (k k' i : Nat)
  | against (k k' i j : Nat)

/-- the decision, the first train first -/
def Choice.yes (N : CodedNet) (P : Plan) (π : TablePlan) : Choice → Prop
  | .first k k' i => N.firstAt P π k k' i
  | .against k k' i j => N.againstAt P π k k' i j

/-- the other way round -/
def Choice.no (N : CodedNet) (P : Plan) (π : TablePlan) : Choice → Prop
  | .first k k' i => N.firstAt P π k' k i
  | .against k k' i j => N.againstAt P π k' k j i

/-- the cases: `2 v + 1` and `2 v + 2` are the two ways to decide the `v`-th choice -/
def caseOf (N : CodedNet) (P : Plan) (π : TablePlan) (cs : List Choice) (n : Nat) : Prop :=
  ∃ v c, cs[v]? = some c ∧ ((n = 2 * v + 1 ∧ c.yes N P π) ∨ (n = 2 * v + 2 ∧ c.no N P π))

/-- the times: `0`, and departures -/
def timeOf (N : CodedNet) (P : Plan) (π : TablePlan) (ns : List (Nat × Nat)) : Nat → ℚ
  | 0 => 0
  | n + 1 => match ns[n]? with
    | some (k, i) => N.depAt P π k i
    | none => 0

/-- the choice has to be made -/
def Choice.ok (N : CodedNet) (sp : Special) (P : Plan) : Choice → Bool
  | .first k k' i => (N.follows sp P k k' i).isSome || N.shares P k k' i || N.departs P k k' i
  | .against k k' i j => (match N.crosses P k k' i with
      | some (j', _) => Nat.beq j j'
      | none => false) || (match N.crosses P k' k j with
      | some (i', _) => Nat.beq i i'
      | none => false)

theorem Choice.ok_spec {t1 : String} {delays : List (Int × ℚ)}
    (K : Planned N good td t1 delays dmax sp P)
    (R : TableRules td N.stationTable N.pathTable t1 1 delays bound cat π) {c : Choice}
    (h : c.ok N sp P = true) : c.yes N P π ∨ c.no N P π := by
  cases c with
  | first k k' i =>
    simp only [Choice.ok, Bool.or_eq_true] at h
    rcases h with (h | h) | h
    · obtain ⟨⟨w, w'⟩, h⟩ := Option.isSome_iff_exists.1 h
      rcases follows_spec K R h with q | q
      · exact .inl q.1
      · exact .inr q.1
    · rcases shares_spec K R h with q | q
      · exact .inl q.1
      · exact .inr q.1
    · rcases departs_spec K R h with q | q
      · exact .inl q.1
      · exact .inr q.1
  | against k k' i j =>
    simp only [Choice.ok, Bool.or_eq_true] at h
    rcases h with h | h
    · split at h
      swap
      · cases h
      rename_i j' w hc
      obtain rfl := Nat.eq_of_beq_eq_true h
      rcases crosses_spec K R hc with q | q
      · exact .inl q.1
      · exact .inr q.1
    · split at h
      swap
      · cases h
      rename_i i' w hc
      obtain rfl := Nat.eq_of_beq_eq_true h
      rcases crosses_spec K R hc with q | q
      · exact .inr q.1
      · exact .inl q.1

/-- the case says that the `k`-th train goes first in station `i` -/
def saysFirst (cs : List Choice) (lit k k' i : Nat) : Bool := match cs[(lit - 1) / 2]? with
  | some (.first m m' s) => Nat.beq s i && (match Nat.beq (lit % 2) 1 with
    | true => Nat.beq m k && Nat.beq m' k'
    | false => Nat.beq m k' && Nat.beq m' k)
  | _ => false

/-- the case says that the `k`-th train from station `i` goes first -/
def saysAgainst (cs : List Choice) (lit k k' i j : Nat) : Bool := match cs[(lit - 1) / 2]? with
  | some (.against m m' s s') => match Nat.beq (lit % 2) 1 with
    | true => Nat.beq m k && Nat.beq m' k' && Nat.beq s i && Nat.beq s' j
    | false => Nat.beq m k' && Nat.beq m' k && Nat.beq s j && Nat.beq s' i
  | _ => false

theorem saysFirst_spec {cs : List Choice} {lit k k' i : Nat} (h : saysFirst cs lit k k' i = true)
    (hc : lit = 0 ∨ caseOf N P π cs lit) (h0 : lit ≠ 0) : N.firstAt P π k k' i := by
  obtain ⟨v, c, hv, hq⟩ := hc.resolve_left h0
  have e : (lit - 1) / 2 = v := by rcases hq with ⟨e, -⟩ | ⟨e, -⟩ <;> omega
  unfold saysFirst at h
  rw [e, hv] at h
  split at h
  swap
  · cases h
  rename_i m m' s hs
  cases hs
  simp only [Bool.and_eq_true, Nat.beq_eq] at h
  obtain ⟨rfl, h⟩ := h
  rcases hq with ⟨rfl, hq⟩ | ⟨rfl, hq⟩
  · have : Nat.beq ((2 * v + 1) % 2) 1 = true := by rw [Nat.beq_eq]; omega
    rw [this] at h
    simp only [Bool.and_eq_true, Nat.beq_eq] at h
    obtain ⟨rfl, rfl⟩ := h
    exact hq
  · have : Nat.beq ((2 * v + 2) % 2) 1 = false := by
      rw [← Bool.not_eq_true, Nat.beq_eq]; omega
    rw [this] at h
    simp only [Bool.and_eq_true, Nat.beq_eq] at h
    obtain ⟨rfl, rfl⟩ := h
    exact hq

theorem saysAgainst_spec {cs : List Choice} {lit k k' i j : Nat}
    (h : saysAgainst cs lit k k' i j = true) (hc : lit = 0 ∨ caseOf N P π cs lit) (h0 : lit ≠ 0) :
    N.againstAt P π k k' i j := by
  obtain ⟨v, c, hv, hq⟩ := hc.resolve_left h0
  have e : (lit - 1) / 2 = v := by rcases hq with ⟨e, -⟩ | ⟨e, -⟩ <;> omega
  unfold saysAgainst at h
  rw [e, hv] at h
  split at h
  swap
  · cases h
  rename_i m m' s s' hs
  cases hs
  rcases hq with ⟨rfl, hq⟩ | ⟨rfl, hq⟩
  · have : Nat.beq ((2 * v + 1) % 2) 1 = true := by rw [Nat.beq_eq]; omega
    rw [this] at h
    simp only [Bool.and_eq_true, Nat.beq_eq] at h
    obtain ⟨⟨⟨rfl, rfl⟩, rfl⟩, rfl⟩ := h
    exact hq
  · have : Nat.beq ((2 * v + 2) % 2) 1 = false := by
      rw [← Bool.not_eq_true, Nat.beq_eq]; omega
    rw [this] at h
    simp only [Bool.and_eq_true, Nat.beq_eq] at h
    obtain ⟨⟨⟨rfl, rfl⟩, rfl⟩, rfl⟩ := h
    exact hq

/-- the departure with number `n` -/
def nodeAt (ns : List (Nat × Nat)) (n : Nat) : Option (Nat × Nat) := match n with
  | 0 => none
  | n + 1 => ns[n]?

theorem nodeAt_spec {ns : List (Nat × Nat)} {n k i : Nat} (h : nodeAt ns n = some (k, i)) :
    timeOf N P π ns n = N.depAt P π k i := by
  cases n with
  | zero => cases h
  | succ n =>
    have h : ns[n]? = some (k, i) := h
    show (match ns[n]? with
      | some (k, i) => N.depAt P π k i
      | none => 0) = _
    rw [h]

/-- the inequality holds for the reason given -/
def arcOK (N : CodedNet) (sp : Special) (P : Plan) (ns : List (Nat × Nat)) (cs : List Choice)
    (x : TimeArc) : Bool := match x.why with
  | .low => Nat.beq x.src 0 && !x.late && (match nodeAt ns x.dst with
    | some (k, i) => match N.earlyAt P k i with
      | some e => decide ((x.a : Int) ≤ e + x.b)
      | none => false
    | none => false)
  | .late => Nat.beq x.dst 0 && x.late && (match nodeAt ns x.src with
    | some (k, i) => match N.earlyAt P k i with
      | some e => decide (e + x.a ≤ (x.b : Int))
      | none => false
    | none => false)
  | .run => !x.late && (match nodeAt ns x.src, nodeAt ns x.dst with
    | some (k, i), some (k', j) => Nat.beq k k' && (match N.runTo P k j with
      | some (i', w) => Nat.beq i i' && decide ((x.a : Int) ≤ w + x.b)
      | none => false)
    | _, _ => false)
  | .follow => !x.late && !Nat.beq x.lit 0 && (match nodeAt ns x.src, nodeAt ns x.dst with
    | some (k, i), some (k', j) => Nat.beq i j && saysFirst cs x.lit k k' i &&
      (match N.follows sp P k k' i with
      | some (w, _) => decide ((x.a : Int) ≤ w + x.b)
      | none => false)
    | _, _ => false)
  | .track => !x.late && !Nat.beq x.lit 0 && (match nodeAt ns x.src with
    | some (k, i) => match cs[(x.lit - 1) / 2]? with
      | some (.first m m' _) =>
        let k' := if Nat.beq m k then m' else m
        saysFirst cs x.lit k k' i && N.shares P k k' i && N.goesOnAt P k i &&
        (match N.comesBy P k' i with
        | some (none, w) => Nat.beq x.dst 0 && decide (w + x.a ≤ (x.b : Int))
        | some (some j, w) => (match nodeAt ns x.dst with
          | some (k2, j2) => Nat.beq k2 k' && Nat.beq j2 j && decide (w + x.a ≤ (x.b : Int))
          | none => false)
        | none => (match nodeAt ns x.dst with
          | some (k2, j2) => (match N.bringsTo P k2 k' i with
            | some (j, w) => Nat.beq j2 j && decide (w + x.a ≤ (x.b : Int))
            | none => false)
          | none => false))
      | _ => false
    | none => false)
  | .leave => !x.late && !Nat.beq x.lit 0 && (match nodeAt ns x.src, nodeAt ns x.dst with
    | some (k, i), some (k', j) => saysAgainst cs x.lit k k' i j && (match N.crosses P k k' i with
      | some (j', w) => Nat.beq j j' && decide (w + x.a ≤ 1 + (x.b : Int))
      | none => false)
    | _, _ => false)
  | .come => !x.late && !Nat.beq x.lit 0 && (match nodeAt ns x.src, nodeAt ns x.dst with
    | some (k', j), some (k, i) => saysAgainst cs x.lit k' k j i && (match N.crosses P k k' i with
      | some (j', w) => Nat.beq j j' && decide ((x.a : Int) ≤ w + 1 + x.b)
      | none => false)
    | _, _ => false)
  | .depart => !x.late && !Nat.beq x.lit 0 && (match nodeAt ns x.src, nodeAt ns x.dst with
    | some (k, i), some (k', j) => Nat.beq i j && saysFirst cs x.lit k k' i && N.departs P k k' i &&
      decide ((x.a : Int) ≤ 1 + x.b)
    | _, _ => false)
  | .stock => !x.late && (match nodeAt ns x.src, nodeAt ns x.dst with
    | some (k, j), some (k', i) => (match N.handsTo P k k' i with
      | some (j', w) => Nat.beq j j' && decide ((x.a : Int) ≤ w + x.b)
      | none => false)
    | _, _ => false)

section
variable {ns : List (Nat × Nat)} {cs : List Choice} {x : TimeArc}

theorem arcOK_spec (K : Planned N good td t1 delays dmax sp P) (E : HasEarliest td t1 delays)
    (R : TableRules td N.stationTable N.pathTable t1 1 delays bound cat π)
    (h : N.arcOK sp P ns cs x = true) (hc : x.lit = 0 ∨ caseOf N P π cs x.lit) :
    x.Holds (timeOf N P π ns) bound := by
  have z : timeOf N P π ns 0 = 0 := rfl
  unfold TimeArc.Holds
  unfold arcOK at h
  split at h
  · simp only [Bool.and_eq_true, Nat.beq_eq, Bool.not_eq_true'] at h
    obtain ⟨⟨h1, h2⟩, h⟩ := h
    split at h
    swap
    · cases h
    rename_i k i hn
    split at h
    swap
    · cases h
    rename_i e he
    have h3 : (x.a : ℚ) ≤ e + x.b := by exact_mod_cast of_decide_eq_true h
    have h4 := (earlyAt_spec K E R he).1
    rw [h1, h2, nodeAt_spec hn, z]
    simp only [Bool.false_eq_true, if_false]
    linarith
  · simp only [Bool.and_eq_true, Nat.beq_eq] at h
    obtain ⟨⟨h1, h2⟩, h⟩ := h
    split at h
    swap
    · cases h
    rename_i k i hn
    split at h
    swap
    · cases h
    rename_i e he
    have h3 : (e : ℚ) + x.a ≤ x.b := by exact_mod_cast of_decide_eq_true h
    have h4 := (earlyAt_spec K E R he).2
    rw [h1, h2, nodeAt_spec hn, z]
    simp only [if_true]
    linarith
  · simp only [Bool.and_eq_true, Bool.not_eq_true'] at h
    obtain ⟨h2, h⟩ := h
    split at h
    swap
    · cases h
    rename_i k i k' j hn hn'
    simp only [Bool.and_eq_true, Nat.beq_eq] at h
    obtain ⟨rfl, h⟩ := h
    split at h
    swap
    · cases h
    rename_i i' w hr
    simp only [Bool.and_eq_true, Nat.beq_eq, decide_eq_true_eq] at h
    obtain ⟨rfl, h⟩ := h
    have h3 : (x.a : ℚ) ≤ w + x.b := by exact_mod_cast h
    have h4 := runTo_spec K R hr
    rw [h2, nodeAt_spec hn, nodeAt_spec hn']
    simp only [Bool.false_eq_true, if_false]
    linarith
  · simp only [Bool.and_eq_true, Bool.not_eq_true'] at h
    obtain ⟨⟨h2, h0⟩, h⟩ := h
    have h0 : x.lit ≠ 0 := by
      intro e
      rw [e] at h0
      cases h0
    split at h
    swap
    · cases h
    rename_i k i k' j hn hn'
    simp only [Bool.and_eq_true, Nat.beq_eq] at h
    obtain ⟨⟨rfl, hs⟩, h⟩ := h
    have hf := saysFirst_spec hs hc h0
    split at h
    swap
    · cases h
    rename_i w w' hr
    have h3 : (x.a : ℚ) ≤ w + x.b := by exact_mod_cast of_decide_eq_true h
    rw [h2, nodeAt_spec hn, nodeAt_spec hn']
    simp only [Bool.false_eq_true, if_false]
    rcases follows_spec K R hr with ⟨-, q⟩ | ⟨q, -⟩
    · linarith
    · exact absurd q (R.one _ _ _ hf)
  · simp only [Bool.and_eq_true, Bool.not_eq_true'] at h
    obtain ⟨⟨h2, h0⟩, h⟩ := h
    have h0 : x.lit ≠ 0 := by
      intro e
      rw [e] at h0
      cases h0
    split at h
    swap
    · cases h
    rename_i k i hn
    split at h
    swap
    · cases h
    rename_i m m' s hm
    simp only [Bool.and_eq_true] at h
    generalize (if Nat.beq m k = true then m' else m) = k' at h
    obtain ⟨⟨⟨hs, hsh⟩, hg⟩, h⟩ := h
    have hf := saysFirst_spec hs hc h0
    rw [h2, nodeAt_spec hn]
    simp only [Bool.false_eq_true, if_false]
    rcases shares_spec K R hsh with ⟨-, q⟩ | ⟨q, -⟩
    swap
    · exact absurd q (R.one _ _ _ hf)
    split at h
    · rename_i w hcb
      simp only [Bool.and_eq_true, Nat.beq_eq, decide_eq_true_eq] at h
      obtain ⟨e, h⟩ := h
      have h3 : (w : ℚ) + x.a ≤ x.b := by exact_mod_cast h
      have h4 := q hg _ (comesBy_spec K E hcb)
      have h5 : N.depOr P π k' none = 0 := rfl
      rw [h5] at h4
      rw [e, z]
      linarith
    · rename_i j w hcb
      split at h
      swap
      · cases h
      rename_i k2 j2 hn'
      simp only [Bool.and_eq_true, Nat.beq_eq, decide_eq_true_eq] at h
      obtain ⟨⟨rfl, rfl⟩, h⟩ := h
      have h3 : (w : ℚ) + x.a ≤ x.b := by exact_mod_cast h
      have h4 := q hg _ (comesBy_spec K E hcb)
      have h5 : N.depOr P π k2 (some j2) = N.depAt P π k2 j2 := rfl
      rw [h5] at h4
      rw [nodeAt_spec hn']
      linarith
    · split at h
      swap
      · cases h
      rename_i k2 j2 hn'
      split at h
      swap
      · cases h
      rename_i j w hbt
      simp only [Bool.and_eq_true, Nat.beq_eq, decide_eq_true_eq] at h
      obtain ⟨rfl, h⟩ := h
      have h3 : (w : ℚ) + x.a ≤ x.b := by exact_mod_cast h
      have h4 := q hg _ (bringsTo_spec K hbt)
      rw [nodeAt_spec hn']
      linarith
  · simp only [Bool.and_eq_true, Bool.not_eq_true'] at h
    obtain ⟨⟨h2, h0⟩, h⟩ := h
    have h0 : x.lit ≠ 0 := by
      intro e
      rw [e] at h0
      cases h0
    split at h
    swap
    · cases h
    rename_i k i k' j hn hn'
    simp only [Bool.and_eq_true] at h
    obtain ⟨hs, h⟩ := h
    have hf := saysAgainst_spec hs hc h0
    split at h
    swap
    · cases h
    rename_i j' w hr
    simp only [Bool.and_eq_true, Nat.beq_eq, decide_eq_true_eq] at h
    obtain ⟨rfl, h⟩ := h
    have h3 : (w : ℚ) + x.a ≤ 1 + x.b := by exact_mod_cast h
    rw [h2, nodeAt_spec hn, nodeAt_spec hn']
    simp only [Bool.false_eq_true, if_false]
    rcases crosses_spec K R hr with ⟨-, q⟩ | ⟨q, -⟩
    · linarith
    · exact absurd q (R.oneAgainst _ _ _ _ hf)
  · simp only [Bool.and_eq_true, Bool.not_eq_true'] at h
    obtain ⟨⟨h2, h0⟩, h⟩ := h
    have h0 : x.lit ≠ 0 := by
      intro e
      rw [e] at h0
      cases h0
    split at h
    swap
    · cases h
    rename_i k' j k i hn hn'
    simp only [Bool.and_eq_true] at h
    obtain ⟨hs, h⟩ := h
    have hf := saysAgainst_spec hs hc h0
    split at h
    swap
    · cases h
    rename_i j' w hr
    simp only [Bool.and_eq_true, Nat.beq_eq, decide_eq_true_eq] at h
    obtain ⟨rfl, h⟩ := h
    have h3 : (x.a : ℚ) ≤ w + 1 + x.b := by exact_mod_cast h
    rw [h2, nodeAt_spec hn, nodeAt_spec hn']
    simp only [Bool.false_eq_true, if_false]
    rcases crosses_spec K R hr with ⟨q, -⟩ | ⟨-, q⟩
    · exact absurd q (R.oneAgainst _ _ _ _ hf)
    · linarith
  · simp only [Bool.and_eq_true, Bool.not_eq_true'] at h
    obtain ⟨⟨h2, h0⟩, h⟩ := h
    have h0 : x.lit ≠ 0 := by
      intro e
      rw [e] at h0
      cases h0
    split at h
    swap
    · cases h
    rename_i k i k' j hn hn'
    simp only [Bool.and_eq_true, Nat.beq_eq, decide_eq_true_eq] at h
    obtain ⟨⟨⟨rfl, hs⟩, hd⟩, h⟩ := h
    have hf := saysFirst_spec hs hc h0
    have h3 : (x.a : ℚ) ≤ 1 + x.b := by exact_mod_cast h
    rw [h2, nodeAt_spec hn, nodeAt_spec hn']
    simp only [Bool.false_eq_true, if_false]
    rcases departs_spec K R hd with ⟨-, q⟩ | ⟨q, -⟩
    · linarith
    · exact absurd q (R.one _ _ _ hf)
  · simp only [Bool.and_eq_true, Bool.not_eq_true'] at h
    obtain ⟨h2, h⟩ := h
    split at h
    swap
    · cases h
    rename_i k j k' i hn hn'
    split at h
    swap
    · cases h
    rename_i j' w hr
    simp only [Bool.and_eq_true, Nat.beq_eq, decide_eq_true_eq] at h
    obtain ⟨rfl, h⟩ := h
    have h3 : (x.a : ℚ) ≤ w + x.b := by exact_mod_cast h
    have h4 := handsTo_spec K R hr
    rw [h2, nodeAt_spec hn, nodeAt_spec hn']
    simp only [Bool.false_eq_true, if_false]
    linarith

/-- **A proof by cases that passes the checks bounds the delays from below.** -/
theorem Planned.tree_bound (K : Planned N good td t1 delays dmax sp P) (E : HasEarliest td t1 delays)
    (R : TableRules td N.stationTable N.pathTable t1 1 delays bound cat π) {arcs : ArcTree}
    {tree : CaseTree} {D : Nat} (hA : arcs.toList.all (N.arcOK sp P ns cs) = true)
    (hC : cs.all (Choice.ok N sp P) = true) (h : tree.check arcs D cs.length [] = true) :
    (D : ℚ) ≤ bound := by
  rw [List.all_eq_true] at hA hC
  refine CaseTree.sound (δ := timeOf N P π ns) (ℓ := caseOf N P π cs)
    (fun x hx hl => arcOK_spec K E R (hA x hx) hl) (fun v hv => ?_) (ctx := []) (by simp) h
  have hm := List.getElem?_eq_getElem hv
  rcases Choice.ok_spec K R (hC _ (List.mem_of_getElem? hm)) with q | q
  · exact .inl ⟨v, _, hm, .inl ⟨rfl, q⟩⟩
  · exact .inr ⟨v, _, hm, .inr ⟨rfl, q⟩⟩

end

end CodedNet

end Verif
