import Verif.Proofs.CodedPlan

/-!
# Another plan for a sheet

If one plan for a sheet has passed all checks, what a second one shares with it need not be checked
again: the tracks, the blocks and switches on the way, the running times.
-/

namespace Verif

namespace CodedNet

variable {N : CodedNet}

/-- equality of lists of numbers -/
def sameNats : List Nat → List Nat → Bool
  | [], [] => true
  | a :: l, b :: l' => Nat.beq a b && sameNats l l'
  | _, _ => false

theorem sameNats_eq : ∀ {l l' : List Nat}, sameNats l l' = true → l = l'
  | [], [], _ => rfl
  | a :: l, b :: l', h => by
    simp only [sameNats, Bool.and_eq_true, Nat.beq_eq] at h
    rw [h.1, sameNats_eq h.2]
  | [], _ :: _, h => by cases h
  | _ :: _, [], h => by cases h

/-- the same way to the next station -/
def sameNext : Option Leg → Option Leg → Bool
  | none, none => true
  | some l, some l' => Nat.beq l.st l'.st && sameNats l.blocks l'.blocks &&
      decide (l.times = l'.times) && decide (l.run = l'.run) && decide (l.inS = l'.inS)
  | _, _ => false

/-- the same way from the station before -/
def samePrev : Option From → Option From → Bool
  | none, none => true
  | some p, some p' => Nat.beq p.st p'.st && sameNats p.blocks p'.blocks
  | _, _ => false

/-- the items differ at most in times and order -/
def sameItem (a b : Item) : Bool :=
  Nat.beq a.pos b.pos && Nat.beq a.train b.train && Nat.beq a.st b.st &&
  (match a.track, b.track with
  | none, none => true
  | some x, some y => Nat.beq x y
  | _, _ => false) && (a.go == b.go) && (a.free == b.free) && samePrev a.prev b.prev &&
  sameNext a.next b.next && decide (a.inS = b.inS) && decide (a.outS = b.outS)

/-- the items differ at most in times and order -/
def sameItems : List Item → List Item → Bool
  | [], [] => true
  | a :: l, b :: l' => sameItem a b && sameItems l l'
  | _, _ => false

/-- the items differ at most in times and order -/
structure SameItem (a b : Item) : Prop where
  pos : a.pos = b.pos
  train : a.train = b.train
  st : a.st = b.st
  track : a.track = b.track
  go : a.go = b.go
  free : a.free = b.free
  prev : a.prev.map (fun p => (p.st, p.blocks)) = b.prev.map (fun p => (p.st, p.blocks))
  next : a.next = b.next
  inS : a.inS = b.inS
  outS : a.outS = b.outS

theorem sameItem_spec {a b : Item} (h : sameItem a b = true) : SameItem a b := by
  unfold sameItem at h
  simp only [Bool.and_eq_true, Nat.beq_eq, decide_eq_true_eq, beq_iff_eq] at h
  obtain ⟨⟨⟨⟨⟨⟨⟨⟨⟨h1, h2⟩, h3⟩, h4⟩, h5⟩, h6⟩, h7⟩, h8⟩, h9⟩, h10⟩ := h
  refine ⟨h1, h2, h3, ?_, h5, h6, ?_, ?_, h9, h10⟩
  · split at h4
    · rename_i e1 e2
      rw [e1, e2]
    · rename_i e1 e2
      rw [e1, e2, Nat.eq_of_beq_eq_true h4]
    · cases h4
  · unfold samePrev at h7
    split at h7
    · rename_i e1 e2
      rw [e1, e2]
    · rename_i e1 e2
      simp only [Bool.and_eq_true, Nat.beq_eq] at h7
      rw [e1, e2, Option.map_some, Option.map_some, h7.1, sameNats_eq h7.2]
    · cases h7
  · unfold sameNext at h8
    split at h8
    · rename_i e1 e2
      rw [e1, e2]
    · rename_i l l' e1 e2
      simp only [Bool.and_eq_true, Nat.beq_eq, decide_eq_true_eq] at h8
      obtain ⟨⟨⟨⟨g1, g2⟩, g3⟩, g4⟩, g5⟩ := h8
      rw [e1, e2]
      cases l
      cases l'
      simp only at g1 g2 g3 g4 g5
      rw [g1, sameNats_eq g2, g3, g4, g5]
    · cases h8

theorem sameItems_spec : ∀ {l l' : List Item}, sameItems l l' = true → List.Forall₂ SameItem l l'
  | [], [], _ => .nil
  | a :: l, b :: l', h => by
    simp only [sameItems, Bool.and_eq_true] at h
    exact .cons (sameItem_spec h.1) (sameItems_spec h.2)
  | [], _ :: _, h => by cases h
  | _ :: _, [], h => by cases h

theorem itemAt_same {l l' : List Item} (h : List.Forall₂ SameItem l l') {i : Nat} :
    (itemAt l i = none ∧ itemAt l' i = none) ∨
      ∃ a b, itemAt l i = some a ∧ itemAt l' i = some b ∧ SameItem a b := by
  unfold itemAt
  induction h with
  | nil => exact .inl ⟨rfl, rfl⟩
  | @cons a b l l' h0 _ ih =>
    rw [List.find?_cons, List.find?_cons, ← h0.st]
    cases Nat.beq a.st i with
    | true => exact .inr ⟨a, b, rfl, rfl, h0⟩
    | false => exact ih

/-- what has to be checked again for an item -/
def rowAgain (N : CodedNet) (t1 : String) (late : ℚ) (dmax : Int) (its : List Item) (pre : List CRow)
    (r : CRow) (a : Item) : Bool :=
  (!a.go || (decide (a.early ≤ a.dep) && decide (a.dep ≤ a.early + dmax))) &&
  match N.lastSt pre with
  | none => match initialOf t1 r.raw with
    | some v => decide (laterOf t1 r.raw.dep (v + late) = some (a.early : ℚ))
    | none => false
  | some (r0, _) => match N.stIx r0.block with
    | none => false
    | some i0 => match itemAt its i0, a.prev with
      | some a0, some p => (match a0.next with
        | some l => decide (p.arr = a0.dep + l.run) &&
          decide (laterOf t1 r.raw.dep (((a0.early + l.run + roundTenths (tenths r.pass) : Int) : ℚ)) =
            some (a.early : ℚ))
        | none => false) && decide (p.rank = a0.rank) &&
          (!a.go || decide (p.arr + roundTenths (tenths r.pass) ≤ a.dep))
      | _, _ => false

/-- what has to be checked again for the items of a section -/
def sectionAgain (N : CodedNet) (t1 : String) (delays : List (Int × ℚ)) (dmax : Int)
    (c : CodedSection) (its its' : List Item) : Bool :=
  sameItems its its' && (splits (N.crows c.rows)).all fun x => match N.stIx x.2.1.block with
    | none => true
    | some i => match itemAt its' i with
      | none => false
      | some a => N.rowAgain t1 (addedDelay delays c.number) dmax its' x.1 x.2.1 a

theorem rowOK_again {t1 : String} {late late' : ℚ} {dmax dmax' : Int} {sp : Special}
    {c : CodedSection} {its its' : List Item} {i : Nat} {pre : List CRow} {r : CRow} {post : List CRow}
    {a b : Item} (hs : List.Forall₂ SameItem its its') (hab : SameItem a b)
    (h : N.rowOK t1 late dmax sp c its i pre r post a = true)
    (h' : N.rowAgain t1 late' dmax' its' pre r b = true) :
    N.rowOK t1 late' dmax' sp c its' i pre r post b = true := by
  unfold rowOK at h ⊢
  unfold rowAgain at h'
  rw [Bool.and_eq_true] at h'
  obtain ⟨g1, g2⟩ := h'
  simp only [Bool.and_eq_true] at h
  obtain ⟨⟨⟨⟨⟨⟨h1, h2⟩, h3⟩, h4⟩, -⟩, h6⟩, h7⟩ := h
  rw [Bool.and_eq_true, Bool.and_eq_true, Bool.and_eq_true, Bool.and_eq_true, Bool.and_eq_true,
    Bool.and_eq_true]
  rw [← hab.track, ← hab.outS, ← hab.free]
  refine ⟨⟨⟨⟨⟨⟨h1, h2⟩, by rw [← hab.go]; exact h3⟩, h4⟩, g1⟩, h6⟩, ?_⟩
  unfold prevOK at h7 ⊢
  split at h7
  · rename_i e
    rw [e] at g2
    simp only at g2
    rw [Bool.and_eq_true] at h7 ⊢
    refine ⟨?_, g2⟩
    have := hab.prev
    rw [Option.isNone_iff_eq_none.1 h7.1, Option.map_none, eq_comm, Option.map_eq_none_iff] at this
    rw [this]
    rfl
  · rename_i r0 mid e
    rw [e] at g2
    simp only at g2
    split at h7
    · cases h7
    rename_i i0 e0
    rw [e0] at g2
    simp only at g2
    split at h7
    swap
    · cases h7
    rename_i a0 p ha0 hp
    split at g2
    swap
    · cases g2
    rename_i b0 p' hb0 hp'
    have h00 : SameItem a0 b0 := by
      rcases itemAt_same hs (i := i0) with ⟨q1, q2⟩ | ⟨x, y, q1, q2, q3⟩
      · rw [q1] at ha0
        cases ha0
      · rw [q1] at ha0
        rw [q2] at hb0
        cases ha0
        cases hb0
        exact q3
    have hpp := hab.prev
    rw [hp, hp', Option.map_some, Option.map_some, Option.some.injEq, Prod.mk.injEq] at hpp
    simp only [Bool.and_eq_true] at g2 h7
    obtain ⟨⟨k1, k2⟩, k3⟩ := g2
    obtain ⟨⟨⟨⟨⟨j1, j2⟩, -⟩, j4⟩, -⟩, j6⟩ := h7
    rw [hb0, hp']
    simp only [Bool.and_eq_true]
    refine ⟨⟨⟨⟨⟨?_, by rw [← hpp.1]; exact j2⟩, k2⟩, by rw [← hpp.2]; exact j4⟩, k3⟩,
      by rw [← hab.inS]; exact j6⟩
    rw [h00.next] at j1
    cases hn : b0.next with
    | none =>
      rw [hn] at j1
      cases j1
    | some l =>
      rw [hn] at j1 k1
      simp only [Bool.and_eq_true] at j1 k1 ⊢
      obtain ⟨⟨⟨⟨⟨⟨⟨l1, l2⟩, l3⟩, l4⟩, l5⟩, l6⟩, -⟩, -⟩ := j1
      exact ⟨⟨⟨⟨⟨⟨⟨l1, l2⟩, l3⟩, l4⟩, l5⟩, by rw [← hab.inS]; exact l6⟩, k1.1⟩, k1.2⟩

theorem forall₂_same_map {f : Item → Nat} (hf : ∀ a b, SameItem a b → f a = f b) {l l' : List Item}
    (h : List.Forall₂ SameItem l l') : l'.map f = l.map f := by
  induction h with
  | nil => rfl
  | cons h0 _ ih => rw [List.map_cons, List.map_cons, ih, hf _ _ h0]

theorem sectionOK_again {t1 : String} {delays delays' : List (Int × ℚ)} {dmax dmax' : Int}
    {sp : Special} {k : Nat} {c : CodedSection} {its its' : List Item}
    (h : N.sectionOK t1 delays dmax sp k c its = true)
    (h' : N.sectionAgain t1 delays' dmax' c its its' = true) :
    N.sectionOK t1 delays' dmax' sp k c its' = true := by
  unfold sectionAgain at h'
  rw [Bool.and_eq_true, List.all_eq_true] at h'
  obtain ⟨h1, h2⟩ := h'
  have hs := sameItems_spec h1
  unfold sectionOK at h ⊢
  rw [Bool.and_eq_true, Bool.and_eq_true, List.all_eq_true, List.all_eq_true] at h ⊢
  obtain ⟨⟨g1, g2⟩, g3⟩ := h
  refine ⟨⟨by rw [forall₂_same_map (fun a b q => q.st) hs]; exact g1, fun b hb => ?_⟩, fun x hx => ?_⟩
  · obtain ⟨a, ha, hab⟩ := forall₂_right hs hb
    rw [← hab.train, ← hab.pos]
    exact g2 a ha
  · have q3 := g3 x hx
    have q2 := h2 x hx
    cases e : N.stIx x.2.1.block with
    | none => rfl
    | some i =>
    rw [e] at q2 q3
    simp only at q2 q3 ⊢
    cases hb : itemAt its' i with
    | none =>
      rw [hb] at q2
      cases q2
    | some b =>
    cases ha : itemAt its i with
    | none =>
      rw [ha] at q3
      cases q3
    | some a =>
    rw [hb] at q2
    rw [ha] at q3
    simp only at q2 q3 ⊢
    refine rowOK_again hs ?_ q3 q2
    rcases itemAt_same hs (i := i) with ⟨r1, r2⟩ | ⟨u, v, r1, r2, r3⟩
    · rw [r1] at ha
      cases ha
    · rw [r1] at ha
      rw [r2] at hb
      cases ha
      cases hb
      exact r3

/-- what has to be checked again for a plan -/
def planAgain (N : CodedNet) (t1 : String) (delays : List (Int × ℚ)) (dmax : Int) : Plan → Plan → Bool
  | [], [] => true
  | x :: P, y :: P' => N.sectionAgain t1 delays dmax x.1 x.2 y.2 && planAgain N t1 delays dmax P P'
  | _, _ => false

theorem sections_again {t1 : String} {delays delays' : List (Int × ℚ)} {dmax dmax' : Int}
    {sp : Special} : ∀ {P P' : Plan} {n : Nat}, P'.map Prod.fst = P.map Prod.fst →
      (∀ x ∈ P.zipIdx n, N.sectionOK t1 delays dmax sp x.2 x.1.1 x.1.2 = true) →
      N.planAgain t1 delays' dmax' P P' = true →
      ∀ x ∈ P'.zipIdx n, N.sectionOK t1 delays' dmax' sp x.2 x.1.1 x.1.2 = true
  | [], [], n, _, _, _ => by simp
  | x :: P, y :: P', n, hf, h, h' => by
    simp only [planAgain, Bool.and_eq_true] at h'
    simp only [List.map_cons, List.cons.injEq] at hf
    intro z hz
    rw [List.zipIdx_cons, List.mem_cons] at hz
    rcases hz with rfl | hz
    · simp only
      rw [hf.1]
      exact sectionOK_again (h (x, n) (by simp [List.zipIdx_cons])) h'.1
    · exact sections_again hf.2 (fun w hw => h w (by
        rw [List.zipIdx_cons]
        exact List.mem_cons_of_mem _ hw)) h'.2 z hz
  | [], _ :: _, _, _, _, h => by cases h
  | _ :: _, [], _, _, _, h => by cases h

/-- the pairs of trains in one station, station by station -/
def stationPairs (sp : Special) (n : Nat) (l : List Item) : Bool :=
  (l.all fun a => Nat.blt a.st n) &&
  (List.range n).all fun s => (l.filter fun a => Nat.beq a.st s).all fun a =>
    (l.filter fun b => Nat.beq b.st s).all (pairOK sp l a)

theorem stationPairs_spec {sp : Special} {n : Nat} {l : List Item} (h : stationPairs sp n l = true) :
    ∀ a ∈ l, ∀ b ∈ l, pairOK sp l a b = true := by
  intro a ha b hb
  simp only [stationPairs, Bool.and_eq_true, List.all_eq_true, List.mem_filter, Nat.beq_eq,
    Nat.blt_eq, List.mem_range] at h
  by_cases e : a.st = b.st
  · exact h.2 a.st (h.1 a ha) a ⟨ha, rfl⟩ b ⟨hb, e.symm⟩
  · unfold pairOK
    rw [show Nat.beq a.st b.st = false by rw [← Bool.not_eq_true, Nat.beq_eq]; exact e]
    rfl

/-- the train goes to the station -/
def goesTo (s : Nat) (b : Item) : Bool := match b.next with
  | some l => Nat.beq l.st s
  | none => false

/-- the trains against each other, station by station -/
def againstPairs (n : Nat) (l : List Item) : Bool :=
  (l.all fun a => Nat.blt a.st n) &&
  (List.range n).all fun s => (l.filter fun a => Nat.beq a.st s).all fun a =>
    (l.filter fun b => goesTo s b).all (againstOK a)

theorem againstPairs_spec {n : Nat} {l : List Item} (h : againstPairs n l = true) :
    ∀ a ∈ l, ∀ b ∈ l, againstOK a b = true := by
  intro a ha b hb
  simp only [againstPairs, Bool.and_eq_true, List.all_eq_true, List.mem_filter, Nat.beq_eq,
    Nat.blt_eq, List.mem_range] at h
  cases e : goesTo a.st b with
  | true => exact h.2 a.st (h.1 a ha) a ⟨ha, rfl⟩ b ⟨hb, e⟩
  | false =>
    have q : meet a b = false ∧ crossing a b = false := by
      unfold goesTo at e
      unfold meet crossing
      cases hb : b.next with
      | none => exact ⟨by cases a.next <;> rfl, rfl⟩
      | some l =>
        rw [hb] at e
        have e : Nat.beq l.st a.st = false := e
        simp only [e]
        exact ⟨by cases a.next <;> simp only [e, Bool.and_false, Bool.false_and], rfl⟩
    unfold againstOK
    rw [q.1, q.2]
    rfl

theorem PlanBase.again {t1 : String} {delays delays' : List (Int × ℚ)} {dmax dmax' : Int}
    {sp : Special} {P P' : Plan} (h : N.PlanBase t1 delays dmax sp P)
    (hf : P'.map Prod.fst = P.map Prod.fst) (hs : N.planAgain t1 delays' dmax' P P' = true)
    (hst : (P'.all fun x => N.stockChecks P' x.1 x.2) = true)
    (hp : stationPairs sp N.stations.length (items P') = true) :
    N.PlanBase t1 delays' dmax' sp P' where
  special := h.special
  sections := sections_again hf h.sections hs
  stock := List.all_eq_true.1 hst
  pairs := stationPairs_spec hp

theorem PlanOK.again {t1 : String} {delays delays' : List (Int × ℚ)} {dmax dmax' : Int}
    {sp : Special} {P P' : Plan} (h : N.PlanOK t1 delays dmax sp P)
    (hf : P'.map Prod.fst = P.map Prod.fst) (hs : N.planAgain t1 delays' dmax' P P' = true)
    (hst : (P'.all fun x => N.stockChecks P' x.1 x.2) = true)
    (hp : stationPairs sp N.stations.length (items P') = true)
    (ha : againstPairs N.stations.length (items P') = true) :
    N.PlanOK t1 delays' dmax' sp P' where
  toPlanBase := h.toPlanBase.again hf hs hst hp
  against := againstPairs_spec ha

end CodedNet

end Verif
