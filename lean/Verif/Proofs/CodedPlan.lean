import Verif.Proofs.CodedRows
import Verif.Props.TableRules

/-!
# Plans for coded sheets

A plan lists, for every train and every station on its way, the departure and all that the rules of
the tables refer to. All is compared by numbers; times of runs are in tenths of minutes.
-/

namespace Verif

namespace CodedNet

variable (N : CodedNet)

/-- the way to the next station: its position, the blocks between, their passing times in tenths of
minutes, the rounded running time, the switches at the end -/
structure Leg where
  st : Nat
  blocks : List Nat
  times : List Int
  run : Int
  inS : List Int

/-- where the train comes from: station, time of arrival, rank there, blocks between -/
structure From where
  st : Nat
  arr : Int
  rank : Int
  blocks : List Nat

/-- A train in a station. `pos` is the position of the train in the sheet; `track` is the block unless
it is left out; `go`: the train goes on; `free`: the next train need not wait for it; `rank`: trains
with smaller rank go first; `comes`: when the rolling stock comes. -/
structure Item where
  pos : Nat
  train : Nat
  st : Nat
  track : Option Nat
  go : Bool
  free : Bool
  early : Int
  dep : Int
  rank : Int
  prev : Option From
  next : Option Leg
  inS : List Int
  outS : List Int
  comes : List Int

/-- what is special about names: stations without tracks and switches, blocks left out, the stations
`KO(STM)` and `KO`, pairs of stations with headway `k = 1`, pairs of stations of which the second name
contains the first -/
structure Special where
  quiet : List Nat
  leftOut : List Nat
  stm : List Nat
  ko : List Nat
  k1 : List (Nat × Nat)
  within : List (Nat × Nat)

/-- the passing time in tenths of minutes -/
def tenths (v : Option ℚ) : Int := (10 * v.getD 0).num

/-- the passing time is a multiple of a tenth -/
def isTenths (v : Option ℚ) : Bool := Nat.beq (10 * v.getD 0).den 1

/-- tenths rounded to minutes -/
def roundTenths (n : Int) : Int :=
  if n % 10 < 5 then n / 10 else if 5 < n % 10 then n / 10 + 1
  else if n / 10 % 2 = 0 then n / 10 else n / 10 + 1

/-- all ways to split a list at an element -/
def splits {α : Type} : List α → List (List α × α × List α)
  | [] => []
  | a :: l => ([], a, l) :: (splits l).map fun x => (a :: x.1, x.2)

/-- the last row in a station, and the rows after it -/
def lastSt : List CRow → Option (CRow × List CRow)
  | [] => none
  | r :: l => match lastSt l with
    | some x => some x
    | none => if N.inSt r.block then some (r, l) else none

/-- the switches between two blocks, as the code reads them -/
def switchesOf (a b : Nat) : List Int :=
  match N.table.find? fun x => joins x a b with
  | none => []
  | some x => match withZero x.2.2.switches with
    | .float u v => if v = 0 then [(u : Int)] else [(u : Int), (v : Int)]
    | .textInt n => [n]
    | .textTuple l => l
    | _ => []

/-- not before the departure time of the table -/
def laterOf (t1 : String) (dep : Option String) (u : ℚ) : Option ℚ :=
  match dep with
  | none => some u
  | some d => match calcTimeDiff t1 d with
    | .ok v => some (max v u)
    | .error _ => none

/-- the time given for the first station -/
def initialOf (t1 : String) (r : RawRow) : Option ℚ :=
  match r.dep with
  | some d => match calcTimeDiff t1 d with
    | .ok v => some v
    | .error _ => none
  | none => match r.approxEnter with
    | some d => match calcTimeDiff t1 d with
      | .ok v => some v
      | .error _ => none
    | none => some 0

/-- the number is in the list -/
def has (l : List Nat) (a : Nat) : Bool := l.any (Nat.beq a)
/-- the pair is in the list -/
def hasPair (l : List (Nat × Nat)) (a b : Nat) : Bool :=
  l.any fun x => Nat.beq a x.1 && Nat.beq b x.2
/-- the switch is in the list -/
def hasInt (l : List Int) (a : Int) : Bool := l.any fun b => decide (a = b)
/-- the lists have a common switch -/
def common (l l' : List Int) : Bool := l.any (hasInt l')

/-- the item of a station -/
def itemAt (its : List Item) (i : Nat) : Option Item := its.find? fun a => Nat.beq a.st i

/-- the station of the last block -/
def lastStation (c : CodedSection) : Option Nat := (c.rows.map Prod.fst).getLast?.bind N.stIx

/-- the checks of the way that the train comes -/
def prevOK (t1 : String) (late : ℚ) (sp : Special) (its : List Item) (i : Nat) (pre : List CRow)
    (r : CRow) (a : Item) : Bool :=
  match N.lastSt pre with
  | none =>
    a.prev.isNone && (match initialOf t1 r.raw with
      | some v => decide (laterOf t1 r.raw.dep (v + late) = some (a.early : ℚ))
      | none => false)
  | some (r0, mid) =>
    match N.stIx r0.block with
    | none => false
    | some i0 =>
      match itemAt its i0, a.prev with
      | some a0, some p =>
        (match a0.next with
        | some l =>
          Nat.beq l.st i && decide (l.blocks = mid.map (·.block)) &&
          decide (l.times = mid.map fun x => tenths x.pass) &&
          decide (l.run = roundTenths l.times.sum) && mid.all (fun x => isTenths x.pass) &&
          decide (l.inS = a.inS) &&
          decide (p.arr = a0.dep + l.run) &&
          decide (laterOf t1 r.raw.dep (((a0.early + l.run + roundTenths (tenths r.pass) : Int) : ℚ)) =
            some (a.early : ℚ))
        | none => false) &&
        Nat.beq p.st i0 && decide (p.rank = a0.rank) && decide (p.blocks = mid.map (·.block)) &&
        (!a.go || decide (p.arr + roundTenths (tenths r.pass) ≤ a.dep)) &&
        (has sp.quiet i || (has sp.stm i && has sp.ko i0) ||
          (match pre.getLast? with
          | some r1 => (N.switchesOf r1.block r.block).all (hasInt a.inS)
          | none => true))
      | _, _ => false

/-- the checks of an item -/
def rowOK (t1 : String) (late : ℚ) (dmax : Int) (sp : Special) (c : CodedSection) (its : List Item)
    (i : Nat) (pre : List CRow) (r : CRow) (post : List CRow) (a : Item) : Bool :=
  isTenths r.pass &&
  (match a.track with
  | some b => Nat.beq b r.block
  | none => has sp.quiet i || has sp.leftOut r.block) &&
  (a.go == !post.isEmpty) &&
  (!a.free || (match N.lastStation c with
    | some j => hasPair sp.within i j
    | none => false)) &&
  (!a.go || (decide (a.early ≤ a.dep) && decide (a.dep ≤ a.early + dmax))) &&
  (match post with
  | [] => true
  | r1 :: _ => (post.all fun x => !N.inSt x.block) || has sp.quiet i ||
      (has sp.stm i && (match post.find? fun x => N.inSt x.block with
        | some x => (match N.stIx x.block with
          | some j => has sp.ko j
          | none => false)
        | none => false)) ||
      (N.switchesOf r.block r1.block).all (hasInt a.outS)) &&
  N.prevOK t1 late sp its i pre r a

/-- the checks of the items of a section -/
def sectionOK (t1 : String) (delays : List (Int × ℚ)) (dmax : Int) (sp : Special) (k : Nat)
    (c : CodedSection) (its : List Item) : Bool :=
  nodupNat (its.map Item.st) && its.all (fun a => Nat.beq a.train c.number && Nat.beq a.pos k) &&
  (splits (N.crows c.rows)).all fun x => match N.stIx x.2.1.block with
    | none => true
    | some i => match itemAt its i with
      | none => false
      | some a => N.rowOK t1 (addedDelay delays c.number) dmax sp c its i x.1 x.2.1 x.2.2 a

/-- the first train hands its rolling stock to the second -/
def handsOn (c0 c : CodedSection) : Bool :=
  (Nat.beq c0.number (10 * c.number + 9) && over c0 c) ||
    (Nat.beq c.number (10 * c0.number + 9) && over c0 c && !over c c0)

/-- a plan: the items of every section -/
abbrev Plan := List (CodedSection × List Item)

/-- the station of the first block -/
def firstStation (c : CodedSection) : Option Nat := (c.rows.map Prod.fst).head?.bind N.stIx

/-- the arrival of the train of a section in a station -/
def arrival (its : List Item) (i : Nat) : Option Int :=
  (itemAt its i).bind fun a => a.prev.map From.arr

/-- the trains that hand over their rolling stock to a section -/
def handers (P : Plan) (c : CodedSection) : Plan := P.filter fun x => handsOn x.1 c

/-- the station is the given one -/
def isAt (o : Option Nat) (s : Nat) : Bool := match o with
  | some i => Nat.beq i s
  | none => false

/-- the checks of the rolling stock of a section -/
def stockChecks (P : Plan) (c : CodedSection) (its : List Item) : Bool :=
  let hs := handers P c
  let i0 := N.firstStation c
  (its.all fun a =>
    if isAt i0 a.st && !hs.isEmpty then
      hs.all fun x => match arrival x.2 a.st with
        | some v => hasInt a.comes v
        | none => true
    else match a.prev with
      | some p => hasInt a.comes p.arr
      | none => hasInt a.comes a.early) &&
  hs.all fun x => match i0 with
    | none => true
    | some i => match arrival x.2 i, itemAt its i, c.rows.head? with
      | some v, some a, some q => (match q.2.turnaround with
        | some w => decide ((v : ℚ) + w ≤ a.dep)
        | none => true)
      | none, _, _ => true
      | _, _, _ => false

/-! ## Two trains -/

/-- numbers `n` and `10 n + 9` -/
def paired (m n : Nat) : Bool := Nat.beq m (10 * n + 9) || Nat.beq n (10 * m + 9)

/-- smaller, or equal and the train has the smaller number -/
def lexLt (u v : Int) (m n : Nat) : Bool := decide (u < v) || (decide (u = v) && Nat.blt m n)

/-- goes first -/
def before (a b : Item) : Bool := lexLt a.rank b.rank a.train b.train

/-- comes first -/
def entersB (a b : Item) : Bool := match a.prev, b.prev with
  | some p, some q => lexLt p.arr q.arr a.train b.train
  | _, _ => false

/-- the headway in tenths of minutes -/
def headwayTenths (k : Nat) (t1 t2 : List Int) : Int :=
  (((List.range t1.length).map fun x =>
    ((t1.drop x).take k).sum + ((List.range x).map fun i => t1.getD i 0 - t2.getD i 0).sum).max?).getD 0

/-- trains over the same blocks keep the headway -/
def followingOK (sp : Special) (a b : Item) : Bool := match a.next, b.next with
  | some l, some l' => !(Nat.beq l.st l'.st && decide (l.blocks = l'.blocks)) || !before a b ||
      decide (a.dep + roundTenths (headwayTenths
        (if hasPair sp.k1 a.st l.st || hasPair sp.k1 l.st a.st then 1 else 2) l.times l'.times) ≤ b.dep)
  | _, _ => true

/-- trains share a track -/
def shareTrack (a b : Item) : Bool := match a.track, b.track with
  | some x, some y => Nat.beq x y && !paired a.train b.train
  | _, _ => false

/-- a track is free before the next train comes -/
def tracksOK (a b : Item) : Bool :=
  !shareTrack a b || !before a b || a.free || b.comes.all fun v => decide (a.dep ≤ v)

/-- the order at the station before -/
def beforePrev (a b : Item) : Bool := match a.prev, b.prev with
  | some p, some q => lexLt p.rank q.rank a.train b.train
  | _, _ => false

/-- they come over the same blocks -/
def sameWay (a b : Item) : Bool := match a.prev, b.prev with
  | some p, some q => Nat.beq p.st q.st && decide (p.blocks = q.blocks)
  | _, _ => false

/-- they leave over the same blocks -/
def sameLeg (a b : Item) : Bool := match a.next, b.next with
  | some l, some l' => Nat.beq l.st l'.st && decide (l.blocks = l'.blocks)
  | _, _ => false

/-- common switches on the way out -/
def shareOut (a b : Item) : Bool := !paired a.train b.train && common a.outS b.outS
/-- common switches on the way in -/
def shareIn (a b : Item) : Bool := !paired a.train b.train && common a.inS b.inS

/-- the order matters -/
def contend (a b : Item) : Bool := sameLeg a b || shareTrack a b || shareOut a b

/-- the order is the same here and in the station before -/
def orderOK (all : List Item) (a b : Item) : Bool :=
  !shareTrack a b || b.free || !Nat.blt a.pos b.pos ||
  ((!sameWay a b || (before a b == beforePrev a b)) &&
   (match a.prev, b.prev with
    | some p, none => all.all fun b0 => !(Nat.beq b0.train b.train && Nat.beq b0.st p.st) ||
        all.all fun a0 => !(Nat.beq a0.train a.train && Nat.beq a0.st p.st) || !contend a0 b0 ||
          (before a b == before a0 b0)
    | some _, some _ => sameWay a b || !shareIn a b || (before a b == entersB a b)
    | _, _ => true))

/-- common switches are passed one minute apart -/
def switchOK (a b : Item) : Bool :=
  (!shareOut a b || !before a b || decide (a.dep + 1 ≤ b.dep)) &&
  (!shareIn a b || (match a.prev, b.prev with
    | some p, some q =>
      if sameWay a b then !beforePrev a b || decide (p.arr + 1 ≤ q.arr)
      else !entersB a b || decide (p.arr + 1 ≤ q.arr)
    | _, _ => true))

/-- the conditions on two trains in one station -/
def pairOK (sp : Special) (all : List Item) (a b : Item) : Bool :=
  !Nat.beq a.st b.st || Nat.beq a.train b.train ||
    (followingOK sp a b && tracksOK a b && orderOK all a b && switchOK a b)

/-- the trains run against each other over the same blocks -/
def meet (a b : Item) : Bool := match a.next, b.next with
  | some l, some l' => Nat.beq l.st b.st && Nat.beq l'.st a.st && !l.blocks.isEmpty &&
      decide (l.blocks = l'.blocks.reverse)
  | _, _ => false

/-- train `b`, on the way to the station of `a`, passes switches that `a` passes leaving it -/
def crossing (a b : Item) : Bool := match b.next with
  | some l => Nat.beq l.st a.st && common a.outS l.inS
  | none => false

/-- all is in order if `a` goes first -/
def okFirst (a b : Item) : Bool :=
  (!meet a b || (match a.next with
    | some l => decide (a.dep + l.run ≤ b.dep)
    | none => true)) &&
  (!crossing a b || (match b.next with
    | some l => decide (a.dep + 1 ≤ b.dep + l.run)
    | none => true)) &&
  (!crossing b a || (match a.next with
    | some l => decide (a.dep + l.run + 1 ≤ b.dep)
    | none => true))

/-- `a` goes before `b` which comes from elsewhere -/
def goesFirst (a b : Item) : Bool :=
  okFirst a b && (Nat.blt a.train b.train || (Nat.blt b.train a.train && !okFirst b a))

/-- trains against each other -/
def againstOK (a b : Item) : Bool :=
  !(meet a b || crossing a b) || Nat.beq a.train b.train || paired a.train b.train ||
    okFirst a b || okFirst b a

/-- all items of a plan -/
def items (P : Plan) : List Item := P.flatMap Prod.snd

/-- the names are special as said -/
structure SpecialOK (sp : Special) : Prop where
  quiet : ∀ i ∈ sp.quiet, ∀ x ∈ N.stName i, x ∈ ["KO(KS)", "KO(IC)"]
  leftOut : ∀ b ∈ sp.leftOut, nameOf N.names b ∈ blocksLeftOut
  stm : ∀ i ∈ sp.stm, ∀ x ∈ N.stName i, x = "KO(STM)"
  ko : ∀ i ∈ sp.ko, ∀ x ∈ N.stName i, x = "KO"
  k1 : ∀ i < N.stations.length, ∀ j < N.stations.length, ∀ x ∈ N.stName i, ∀ y ∈ N.stName j,
    (hasPair sp.k1 i j = true ↔ (x, y) ∈ k1Pairs)
  within : ∀ p ∈ sp.within, ∀ x ∈ N.stName p.1, ∀ y ∈ N.stName p.2, x.toList <:+: y.toList

/-- all checks of a plan, except those of trains against each other -/
structure PlanBase (t1 : String) (delays : List (Int × ℚ)) (dmax : Int) (sp : Special) (P : Plan) :
    Prop where
  special : N.SpecialOK sp
  sections : ∀ x ∈ P.zipIdx, N.sectionOK t1 delays dmax sp x.2 x.1.1 x.1.2 = true
  stock : ∀ x ∈ P, N.stockChecks P x.1 x.2 = true
  pairs : ∀ a ∈ items P, ∀ b ∈ items P, pairOK sp (items P) a b = true

/-- the plan passes all checks -/
structure PlanOK (t1 : String) (delays : List (Int × ℚ)) (dmax : Int) (sp : Special) (P : Plan) : Prop
    extends N.PlanBase t1 delays dmax sp P where
  against : ∀ a ∈ items P, ∀ b ∈ items P, againstOK a b = true

end CodedNet

end Verif
