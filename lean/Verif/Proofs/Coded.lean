import Verif.Props.Sheets

/-!
# Sheets with numbered block names

The block names in the shipped files are long, and comparing texts in Lean's kernel is slow. Here
blocks are numbers, the positions of their names in a list without repetitions, and the conditions
of `GoodSheet` are checked on the numbers.
-/

namespace Verif

/-! ## Names -/

/-- the name with number `i`; numbers out of range have names that are not in use -/
def nameOf (names : List String) (i : Nat) : String :=
  match names[i]? with
  | some s => s
  | none => String.ofList (List.replicate (i + 1) '?')

/-- a number for a text; different texts may have the same one -/
def textCode (s : String) : Nat := s.toList.foldl (fun a c => 512 * a + c.toNat) 0

/-- each number is less than the next one -/
def increasing : List Nat → Bool
  | a :: b :: l => Nat.blt a b && increasing (b :: l)
  | _ => true

theorem increasing_pairwise {l : List Nat} (h : increasing l = true) : l.Pairwise (· < ·) := by
  induction l with
  | nil => exact .nil
  | cons a l ih =>
    cases l with
    | nil => exact List.pairwise_singleton _ _
    | cons b l =>
      simp only [increasing, Bool.and_eq_true, Nat.blt_eq] at h
      have := ih h.2
      refine .cons ?_ this
      intro c hc
      rcases List.mem_cons.1 hc with rfl | hc
      · exact h.1
      · exact h.1.trans (List.rel_of_pairwise_cons this hc)

/-- the name cannot be mistaken for the beginning or end of a section or for one of the names that are
not in use -/
def blockName (s : String) : Bool :=
  !isNumeric s && !startsSection s && !endsSection s && (match s.toList with
    | c :: _ => c != '?'
    | [] => false)

/-- the list of names is in order -/
structure BlockNames (names : List String) : Prop where
  codes : increasing (names.map textCode) = true
  block : ∀ s ∈ names, blockName s = true

theorem BlockNames.nodup {names : List String} (h : BlockNames names) : names.Nodup := by
  have := increasing_pairwise h.codes
  rw [List.pairwise_map] at this
  exact this.imp fun h e => by rw [e] at h; omega

theorem blockName_head {s : String} (h : blockName s = true) : s.toList.head? ≠ some '?' := by
  unfold blockName at h
  intro hh
  cases e : s.toList with
  | nil => rw [e] at hh; cases hh
  | cons c l =>
    rw [e] at hh h
    cases hh
    simp at h

theorem BlockNames.inj {names : List String} (h : BlockNames names) :
    Function.Injective (nameOf names) := by
  have head : ∀ {i : Nat} {s : String}, names[i]? = some s → s.toList.head? ≠ some '?' := fun hs =>
    blockName_head (h.block _ (List.mem_of_getElem? hs))
  intro i j e
  unfold nameOf at e
  rcases hi : names[i]? with _ | s <;> rcases hj : names[j]? with _ | s' <;> rw [hi, hj] at e
  · have := congrArg (fun s : String => s.toList.length) e
    simp at this
    exact this
  · simp only at e
    exact absurd (by rw [← e]; simp [List.replicate_succ]) (head hj)
  · simp only at e
    exact absurd (by rw [e]; simp [List.replicate_succ]) (head hi)
  · simp only at e
    subst e
    obtain ⟨hl, h1⟩ := List.getElem?_eq_some_iff.1 hi
    obtain ⟨hl', h2⟩ := List.getElem?_eq_some_iff.1 hj
    exact (h.nodup.getElem_inj_iff).1 (h1.trans h2.symm)

theorem BlockNames.plain {names : List String} (h : BlockNames names) (i : Nat) :
    isNumeric (nameOf names i) = false ∧ startsSection (nameOf names i) = false ∧
      endsSection (nameOf names i) = false := by
  unfold nameOf
  rcases hi : names[i]? with _ | s
  · have htk : ∀ n, (List.replicate (i + 1) '?').take (n + 1) = '?' :: List.replicate (min n i) '?' := by
      intro n
      rw [List.take_replicate, Nat.min_def, Nat.min_def]
      split <;> split <;> first | omega | rfl
    refine ⟨?_, ?_, ?_⟩
    · simp [isNumeric, List.replicate_succ]
    · simp only [startsSection, String.toList_ofList, htk 3, decide_eq_false_iff_not, not_or]
      constructor <;> intro e <;> have := congrArg String.toList e <;> simp at this
    · simp only [endsSection, String.toList_ofList, htk 1, decide_eq_false_iff_not, not_or]
      constructor <;> intro e <;> have := congrArg String.toList e <;> simp at this
  · have := h.block s (List.mem_of_getElem? hi)
    unfold blockName at this
    simp only [Bool.and_eq_true, Bool.not_eq_true'] at this
    exact ⟨this.1.1.1, this.1.1.2, this.1.2⟩

/-- the same number for a list of characters -/
def listCode (l : List Char) : Nat := l.foldl (fun a c => 512 * a + c.toNat) 0

/-- a quick test on the first character and for digits -/
def blockChars (l : List Char) : Bool :=
  !(!l.isEmpty && l.all (fun c => c.isDigit)) && (match l with
    | c :: _ => c != '?' && c != 'f' && c != 'd' && c != 't'
    | [] => false)

theorem blockName_of_chars {l : List Char} (h : blockChars l = true) :
    blockName (String.ofList l) = true := by
  unfold blockChars at h
  rw [Bool.and_eq_true] at h
  obtain ⟨h1, h2⟩ := h
  cases l with
  | nil => cases h2
  | cons c l =>
    simp only [Bool.and_eq_true, bne_iff_ne] at h2
    obtain ⟨⟨⟨hq, hf⟩, hd⟩, ht⟩ := h2
    unfold blockName
    simp only [Bool.and_eq_true, Bool.not_eq_true', String.toList_ofList, bne_iff_ne]
    refine ⟨⟨⟨?_, ?_⟩, ?_⟩, hq⟩
    · unfold isNumeric
      rw [String.toList_ofList]
      simpa only [Bool.not_eq_true'] using h1
    · simp only [startsSection, String.toList_ofList, List.take_succ_cons, decide_eq_false_iff_not,
        not_or]
      constructor <;> intro e <;> have := congrArg String.toList e <;>
        rw [String.toList_ofList] at this
      · exact hf (List.cons.inj (this.trans (show "from".toList = ['f', 'r', 'o', 'm'] by decide))).1
      · exact hd (List.cons.inj (this.trans (show "depa".toList = ['d', 'e', 'p', 'a'] by decide))).1
    · simp only [endsSection, String.toList_ofList, List.take_succ_cons, decide_eq_false_iff_not,
        not_or]
      constructor <;> intro e <;> have := congrArg String.toList e <;>
        rw [String.toList_ofList] at this
      · exact ht (List.cons.inj (this.trans (show "to".toList = ['t', 'o'] by decide))).1
      · exact ht (List.cons.inj (this.trans (show "te".toList = ['t', 'e'] by decide))).1

theorem blockNames_of_chars {names : List String} {chars : List (List Char)}
    (h : names = chars.map String.ofList) (h1 : increasing (chars.map listCode) = true)
    (h2 : chars.all blockChars = true) : BlockNames names where
  codes := by
    rw [h, List.map_map]
    rw [show textCode ∘ String.ofList = listCode from funext fun l => by
      simp [textCode, listCode]]
    exact h1
  block := by
    intro s hs
    rw [h] at hs
    obtain ⟨l, hl, rfl⟩ := List.mem_map.1 hs
    exact blockName_of_chars (List.all_eq_true.1 h2 l hl)

/-! ## Coded tables -/

/-- a section of the sheet, the blocks being numbers; the texts `path` in `rows` are not used -/
structure CodedSection where
  type : String
  number : Nat
  numberText : String
  name : String
  start : String
  rows : List (Nat × RawRow)
  stop : String

/-- the coded tables: names of blocks, stations, path table -/
structure CodedNet where
  names : List String
  stations : List (String × List Nat)
  table : List (Nat × Nat × PathRow)

namespace CodedNet

variable (N : CodedNet)

/-- the row with the name of its block -/
def row (x : Nat × RawRow) : RawRow := { x.2 with path := nameOf N.names x.1 }

/-- the section -/
def sec (c : CodedSection) : Section where
  hash := line "####"
  type := line c.type
  number := line c.numberText
  name := line c.name
  start := line c.start
  rows := c.rows.map N.row
  stop := line c.stop

/-- the stations -/
def stationTable : Stations := N.stations.map fun e => (e.1, e.2.map (nameOf N.names))

/-- the path table -/
def pathTable : List PathRow := N.table.map fun x =>
  { x.2.2 with prev := nameOf N.names x.1, next := nameOf N.names x.2.1 }

/-! ## Checks on the numbers -/

/-- the position of the station of a block -/
def stIx (b : Nat) : Option Nat := N.stations.findIdx? fun e => e.2.any (Nat.beq b)

/-- the block is in a station -/
def inSt (b : Nat) : Bool := N.stations.any fun e => e.2.any (Nat.beq b)

/-- no number occurs twice -/
def nodupNat : List Nat → Bool
  | [] => true
  | a :: l => l.all (fun b => !Nat.beq a b) && nodupNat l

/-- a cell with switches that can be read -/
def clearCell : SwitchCell → Bool
  | .textInt _ => true
  | .textTuple _ => true
  | .float _ _ => true
  | _ => false

/-- the row of the path table joins the blocks -/
def joins (x : Nat × Nat × PathRow) (a b : Nat) : Bool :=
  (Nat.beq x.1 a && Nat.beq x.2.1 b) || (Nat.beq x.1 b && Nat.beq x.2.1 a)

/-- the path table joins the blocks, and the switches are readable if one of the blocks is in a
station -/
def stepOK (a b : Nat) : Bool :=
  let rs := N.table.filter fun x => joins x a b
  !rs.isEmpty && ((!N.inSt a && !N.inSt b) || rs.all fun x => clearCell x.2.2.switches)

/-- pairs of neighbours in a list -/
def steps {α : Type} : List α → List (α × α)
  | a :: b :: l => (a, b) :: steps (b :: l)
  | _ => []

/-- the text is a time of day -/
def clockText (x : String) : Bool := match parseClock x with
  | .ok _ => true
  | .error _ => false

/-- the speed class is known -/
def speedOK (r : RawRow) : Bool := match r.speed with
  | some x => decide (x = "R") || decide (x = "IC")
  | none => false

/-- the conditions on a single section, the pairs of neighbouring blocks being in the list `good` -/
def secOK (good : List (Nat × Nat)) (c : CodedSection) : Bool :=
  let p := c.rows.map Prod.fst
  isNumeric c.numberText && decide (intOf c.numberText = (c.number : Int)) &&
  startsSection c.start && endsSection c.stop &&
  (!isNumeric c.type && !startsSection c.type) && (!isNumeric c.name && !startsSection c.name) &&
  decide (c.type ∈ knownTypes) &&
  nodupNat p && nodupNat (p.filterMap N.stIx) && (steps p).any (fun x => N.inSt x.1) &&
  (steps p).all (fun x => good.any fun y => Nat.beq x.1 y.1 && Nat.beq x.2 y.2) &&
  c.rows.all (fun x => speedOK x.2) &&
  c.rows.all (fun x => !N.inSt x.1 || (x.2.dep.all clockText && x.2.approxEnter.all clockText))

/-- the runs from one station to the next one, with the blocks between; `cur` is the station passed
last and the blocks since then, in reverse order -/
def runs : Option (Nat × List Nat) → List Nat → List (Nat × Nat × List Nat)
  | _, [] => []
  | none, b :: l => match N.stIx b with
    | none => runs none l
    | some i => runs (some (i, [])) l
  | some (i, acc), b :: l => match N.stIx b with
    | none => runs (some (i, b :: acc)) l
    | some j => (i, j, acc.reverse) :: runs (some (j, [])) l

/-- of two runs between the same stations neither has only some of the blocks of the other -/
def runsOK (R : List (Nat × Nat × List Nat)) : Bool :=
  R.all fun a => R.all fun b => !(Nat.beq a.1 b.1 && Nat.beq a.2.1 b.2.1) ||
    !(a.2.2.all fun x => b.2.2.any (Nat.beq x)) || decide (a.2.2 = b.2.2)

/-- the first section ends in the block where the second one begins -/
def over (c c' : CodedSection) : Bool :=
  match (c.rows.map Prod.fst).getLast?, (c'.rows.map Prod.fst).head? with
  | some b, some b' => Nat.beq b b'
  | _, _ => false

/-- where rolling stock is handed over there is a station, and the train that takes it over has a
turnaround time -/
def overOK (c c' : CodedSection) : Bool :=
  !over c c' || match c'.rows.head? with
    | some x => N.inSt x.1 && x.2.turnaround.isSome
    | none => false

/-- the conditions on pairs of trains `n`, `10 n + 9` -/
def stockOK (cs : List CodedSection) : Bool :=
  cs.all fun c => cs.all fun c' => !Nat.beq c'.number (10 * c.number + 9) ||
    ((over c c' || over c' c) && N.overOK c c' && N.overOK c' c)

/-- the conditions on the network alone -/
structure NetOK (good : List (Nat × Nat)) : Prop where
  names : BlockNames N.names
  blocks : nodupNat (N.stations.flatMap Prod.snd) = true
  stations : (N.stations.map fun e => textCode e.1).Nodup
  texts : ∀ e ∈ N.stations, e.1 ≠ "" ∧ e.1 ≠ "p" ∧ Plain (.str e.1) ∧ Legal e.1
  good : ∀ x ∈ good, N.stepOK x.1 x.2 = true

/-- the conditions on the sheet -/
structure SheetOK (good : List (Nat × Nat)) (R : List (Nat × Nat × List Nat))
    (cs : List CodedSection) : Prop where
  sections : ∀ c ∈ cs, N.secOK good c = true
  numbers : nodupNat (cs.map CodedSection.number) = true
  stock : N.stockOK cs = true
  runs : ∀ c ∈ cs, ((N.runs none (c.rows.map Prod.fst)).all fun x => R.any fun y =>
    Nat.beq x.1 y.1 && Nat.beq x.2.1 y.2.1 && decide (x.2.2 = y.2.2)) = true
  lines : runsOK R = true

/-! ## The checks are sound -/

theorem nodupNat_nodup {l : List Nat} (h : nodupNat l = true) : l.Nodup := by
  induction l with
  | nil => exact .nil
  | cons a l ih =>
    simp only [nodupNat, Bool.and_eq_true, List.all_eq_true, Bool.not_eq_true'] at h
    refine List.nodup_cons.2 ⟨fun hm => ?_, ih h.2⟩
    have := h.1 a hm
    simp at this

theorem any_beq {l : List Nat} {b : Nat} : l.any (Nat.beq b) = true ↔ b ∈ l := by
  rw [List.any_eq_true]
  constructor
  · rintro ⟨x, hx, h⟩
    rw [Nat.beq_eq] at h
    exact h ▸ hx
  · exact fun h => ⟨b, h, Nat.beq_refl b⟩

variable {N} {good : List (Nat × Nat)} {R : List (Nat × Nat × List Nat)} {cs : List CodedSection}

theorem belongs_coded (hn : BlockNames N.names) {b : Nat} {x : String} :
    BelongsTo N.stationTable (nameOf N.names b) x ↔ ∃ e ∈ N.stations, e.1 = x ∧ b ∈ e.2 := by
  unfold BelongsTo stationTable
  constructor
  · rintro ⟨bs, h, hb⟩
    obtain ⟨e, he, h1⟩ := List.mem_map.1 h
    cases h1
    obtain ⟨c, hc, h2⟩ := List.mem_map.1 hb
    exact ⟨e, he, rfl, hn.inj h2 ▸ hc⟩
  · rintro ⟨e, he, rfl, hb⟩
    exact ⟨_, List.mem_map.2 ⟨e, he, rfl⟩, List.mem_map.2 ⟨b, hb, rfl⟩⟩

theorem belongs_named {b x : String} (h : BelongsTo N.stationTable b x) :
    ∃ e ∈ N.stations, e.1 = x ∧ ∃ i ∈ e.2, nameOf N.names i = b := by
  obtain ⟨bs, h, hb⟩ := h
  obtain ⟨e, he, h1⟩ := List.mem_map.1 h
  cases h1
  obtain ⟨c, hc, h2⟩ := List.mem_map.1 hb
  exact ⟨e, he, rfl, c, hc, h2⟩

theorem inSt_iff {b : Nat} : N.inSt b = true ↔ ∃ e ∈ N.stations, b ∈ e.2 := by
  unfold inSt
  rw [List.any_eq_true]
  exact exists_congr fun e => and_congr_right fun _ => any_beq

theorem inStation_coded (hn : BlockNames N.names) {b : Nat} :
    InStation N.stationTable (nameOf N.names b) ↔ N.inSt b = true := by
  rw [inSt_iff]
  constructor
  · rintro ⟨x, h⟩
    obtain ⟨e, he, -, hb⟩ := (belongs_coded hn).1 h
    exact ⟨e, he, hb⟩
  · rintro ⟨e, he, hb⟩
    exact ⟨e.1, (belongs_coded hn).2 ⟨e, he, rfl, hb⟩⟩

theorem stIx_isSome {b : Nat} : N.inSt b = true ↔ ∃ i, N.stIx b = some i := by
  unfold inSt stIx
  rw [← Option.isSome_iff_exists, List.findIdx?_isSome]

theorem stIx_none {b : Nat} : N.stIx b = none ↔ N.inSt b = false := by
  rw [← Bool.not_eq_true, stIx_isSome, ← Option.ne_none_iff_exists']
  simp

/-- blocks are in one station only -/
theorem mem_unique {α β : Type} {l : List (α × List β)} (h : (l.flatMap Prod.snd).Nodup) {b : β}
    {i j : Nat} {e e' : α × List β} (hi : l[i]? = some e) (hj : l[j]? = some e') (he : b ∈ e.2)
    (he' : b ∈ e'.2) : i = j := by
  induction l generalizing i j with
  | nil => cases hi
  | cons a l ih =>
    rw [List.flatMap_cons, List.nodup_append] at h
    have clash : ∀ {k : Nat} {z : α × List β}, l[k]? = some z → b ∈ z.2 → b ∈ a.2 → False :=
      fun hk hz ha => h.2.2 b ha b (List.mem_flatMap.2 ⟨_, List.mem_of_getElem? hk, hz⟩) rfl
    cases i <;> cases j
    · rfl
    · cases hi
      exact absurd he fun ha => clash hj he' ha
    · cases hj
      exact absurd he' fun ha => clash hi he ha
    · rw [ih h.2.1 hi hj]

theorem stIx_spec {b i : Nat} (h : N.stIx b = some i) :
    ∃ e, N.stations[i]? = some e ∧ b ∈ e.2 := by
  unfold stIx at h
  obtain ⟨hl, h1, -⟩ := List.findIdx?_eq_some_iff_getElem.1 h
  exact ⟨_, List.getElem?_eq_getElem hl, any_beq.1 h1⟩

theorem stIx_eq (hb : (N.stations.flatMap Prod.snd).Nodup) {b i : Nat} {e : String × List Nat}
    (he : N.stations[i]? = some e) (h : b ∈ e.2) : N.stIx b = some i := by
  obtain ⟨j, hj⟩ := stIx_isSome.1 (inSt_iff.2 ⟨e, List.mem_of_getElem? he, h⟩)
  obtain ⟨e', he', h'⟩ := stIx_spec hj
  rw [hj, mem_unique hb he' he h' h]

/-- the station with a given name has one position -/
theorem station_pos (W : N.NetOK good) {e e' : String × List Nat} {i j : Nat}
    (hi : N.stations[i]? = some e) (hj : N.stations[j]? = some e') (h : e.1 = e'.1) : i = j := by
  have := W.stations
  obtain ⟨hl, h1⟩ := List.getElem?_eq_some_iff.1 hi
  obtain ⟨hl', h2⟩ := List.getElem?_eq_some_iff.1 hj
  refine (this.getElem_inj_iff (hi := by simpa using hl) (hj := by simpa using hl')).1 ?_
  simp [h1, h2, h]

/-- the station of a block, by position -/
theorem stIx_belongs (W : N.NetOK good) {b : Nat} {x : String}
    (h : BelongsTo N.stationTable (nameOf N.names b) x) :
    ∃ i e, N.stations[i]? = some e ∧ e.1 = x ∧ N.stIx b = some i := by
  obtain ⟨e, he, rfl, hb⟩ := (belongs_coded W.names).1 h
  obtain ⟨i, hi⟩ := List.mem_iff_getElem?.1 he
  exact ⟨i, e, hi, rfl, stIx_eq (nodupNat_nodup W.blocks) hi hb⟩

theorem wfStations_coded (W : N.NetOK good) : WfStations N.stationTable := by
  have hb := nodupNat_nodup W.blocks
  refine ⟨⟨?_, ?_⟩, ?_⟩
  · have : Dict.keys N.stationTable = N.stations.map Prod.fst := by
      simp [Dict.keys, stationTable, Function.comp_def]
    rw [this]
    have h := W.stations
    unfold List.Nodup at h ⊢
    rw [List.pairwise_map] at h ⊢
    exact h.imp fun h e => h (by rw [e])
  · intro b s s' h h'
    obtain ⟨e, he, rfl, i, hi, rfl⟩ := belongs_named h
    obtain ⟨e', he', rfl, hb'⟩ := (belongs_coded W.names).1 h'
    obtain ⟨k, hk⟩ := List.mem_iff_getElem?.1 he
    obtain ⟨k', hk'⟩ := List.mem_iff_getElem?.1 he'
    have := mem_unique hb hk hk' hi hb'
    subst this
    rw [hk] at hk'
    cases hk'
    rfl
  · intro e he
    obtain ⟨e0, he0, rfl⟩ := List.mem_map.1 he
    refine List.Nodup.map W.names.inj ?_
    exact (List.nodup_flatMap.1 hb).1 e0 he0

theorem mem_steps {α : Type} {l : List α} {x : α × α} :
    x ∈ steps l ↔ ∃ pre post, l = pre ++ x.1 :: x.2 :: post := by
  induction l with
  | nil => simp [steps]
  | cons a l ih =>
    cases l with
    | nil =>
      simp only [steps, List.not_mem_nil, false_iff]
      rintro ⟨pre, post, e⟩
      cases pre <;> simp at e
    | cons b l =>
      rw [steps, List.mem_cons, ih]
      constructor
      · rintro (rfl | ⟨pre, post, e⟩)
        · exact ⟨[], l, rfl⟩
        · exact ⟨a :: pre, post, by rw [e]; rfl⟩
      · rintro ⟨pre, post, e⟩
        cases pre with
        | nil =>
          simp only [List.nil_append, List.cons.injEq] at e
          exact .inl (Prod.ext e.1.symm e.2.1.symm)
        | cons c pre =>
          simp only [List.cons_append, List.cons.injEq] at e
          exact .inr ⟨pre, post, e.2⟩

/-- rows of a coded section that follow each other -/
theorem follows_coded {c : CodedSection} {a b : RawRow} (h : Follows (N.sec c).rows a b) :
    ∃ x y, x ∈ c.rows ∧ y ∈ c.rows ∧ (x.1, y.1) ∈ steps (c.rows.map Prod.fst) ∧ a = N.row x ∧
      b = N.row y := by
  obtain ⟨pre, post, e⟩ := h
  obtain ⟨l1, l2, e1, -, h2⟩ := List.map_eq_append_iff.1 e
  obtain ⟨x, l3, rfl, h3, h4⟩ := List.map_eq_cons_iff.1 h2
  obtain ⟨y, l4, rfl, h5, -⟩ := List.map_eq_cons_iff.1 h4
  refine ⟨x, y, by rw [e1]; simp, by rw [e1]; simp, mem_steps.2 ⟨l1.map Prod.fst, l4.map Prod.fst, ?_⟩,
    h3.symm, h5.symm⟩
  rw [e1]; simp

/-- the parts of the check of a section -/
structure SecFacts (N : CodedNet) (good : List (Nat × Nat)) (c : CodedSection) : Prop where
  number : isNumeric c.numberText = true
  train : intOf c.numberText = (c.number : Int)
  start : startsSection c.start = true
  stop : endsSection c.stop = true
  type : isNumeric c.type = false ∧ startsSection c.type = false
  name : isNumeric c.name = false ∧ startsSection c.name = false
  known : c.type ∈ knownTypes
  blocks : (c.rows.map Prod.fst).Nodup
  once : ((c.rows.map Prod.fst).filterMap N.stIx).Nodup
  leaves : ∃ x ∈ steps (c.rows.map Prod.fst), N.inSt x.1 = true
  joined : ∀ x ∈ steps (c.rows.map Prod.fst), x ∈ good
  speed : ∀ x ∈ c.rows, speedOK x.2 = true
  times : ∀ x ∈ c.rows, N.inSt x.1 = false ∨
    (x.2.dep.all clockText = true ∧ x.2.approxEnter.all clockText = true)

theorem secFacts {c : CodedSection} (h : N.secOK good c = true) : SecFacts N good c := by
  unfold secOK at h
  simp only [Bool.and_eq_true, Bool.or_eq_true, decide_eq_true_eq, List.all_eq_true,
    List.any_eq_true, Bool.not_eq_true', Nat.beq_eq] at h
  obtain ⟨⟨⟨⟨⟨⟨⟨⟨⟨⟨⟨⟨h1, h2⟩, h3⟩, h4⟩, h5⟩, h6⟩, h7⟩, h8⟩, h9⟩, h10⟩, h11⟩, h12⟩, h13⟩ := h
  refine ⟨h1, h2, h3, h4, h5, h6, h7, nodupNat_nodup h8, nodupNat_nodup h9, h10, ?_, h12, h13⟩
  intro x hx
  obtain ⟨y, hy, e1, e2⟩ := h11 x hx
  rw [show x = y from Prod.ext e1 e2]
  exact hy

theorem joins_iff (hn : BlockNames N.names) {x : Nat × Nat × PathRow} {a b : Nat} :
    joins x a b = true ↔ Joins { x.2.2 with prev := nameOf N.names x.1, next := nameOf N.names x.2.1 }
      (nameOf N.names a) (nameOf N.names b) := by
  unfold joins Joins
  simp only [Bool.and_eq_true, Bool.or_eq_true, Nat.beq_eq, hn.inj.eq_iff]

theorem clearCell_iff {c : SwitchCell} (h : clearCell c = true) : c.Clear := by
  cases c with
  | textInt n => exact .inl ⟨n, rfl⟩
  | textTuple l => exact .inr (.inl ⟨l, rfl⟩)
  | float a b => exact .inr (.inr ⟨a, b, rfl⟩)
  | nan => cases h
  | int n => cases h
  | textBad e => cases h

theorem handsOver_coded (S : N.SheetOK good R cs) (hn : BlockNames N.names) {c c' : CodedSection}
    (hc : c ∈ cs) (hc' : c' ∈ cs) {b : String} (h : HandsOver (N.sec c) (N.sec c') b) :
    over c c' = true ∧ ((c.number : Int) = 10 * c'.number + 9 ∨ (c'.number : Int) = 10 * c.number + 9) ∧
      ∃ x, c'.rows.head? = some x ∧ nameOf N.names x.1 = b := by
  obtain ⟨h1, h2, h3⟩ := h
  have e : (N.sec c).train = c.number := (secFacts (S.sections c hc)).train
  have e' : (N.sec c').train = c'.number := (secFacts (S.sections c' hc')).train
  rw [e, e'] at h1
  have hp : ∀ c : CodedSection, (N.sec c).rows.map (·.path) = (c.rows.map Prod.fst).map (nameOf N.names) := by
    intro c
    simp only [sec, List.map_map]
    rfl
  rw [hp, List.getLast?_map] at h2
  rw [hp, List.head?_map] at h3
  obtain ⟨i, hi, e1⟩ := Option.map_eq_some_iff.1 h2
  obtain ⟨j, hj, e2⟩ := Option.map_eq_some_iff.1 h3
  have : i = j := hn.inj (e1.trans e2.symm)
  subst this
  refine ⟨?_, h1, ?_⟩
  · unfold over
    rw [hi, hj]
    exact Nat.beq_refl i
  · rw [List.head?_map] at hj
    obtain ⟨x, hx, rfl⟩ := Option.map_eq_some_iff.1 hj
    exact ⟨x, hx, e2⟩

theorem over_handsOver {c c' : CodedSection} (h : over c c' = true)
    (hp : (N.sec c).train = 10 * (N.sec c').train + 9 ∨ (N.sec c').train = 10 * (N.sec c).train + 9) :
    ∃ b, HandsOver (N.sec c) (N.sec c') b := by
  have e : ∀ c : CodedSection, (N.sec c).rows.map (·.path) = (c.rows.map Prod.fst).map (nameOf N.names) := by
    intro c
    simp only [sec, List.map_map]
    rfl
  unfold over at h
  split at h
  · rename_i b b' h1 h2
    rw [Nat.beq_eq] at h
    subst h
    refine ⟨nameOf N.names b, hp, ?_, ?_⟩
    · rw [e, List.getLast?_map, h1]; rfl
    · rw [e, List.head?_map, h2]; rfl
  · cases h

/-- the runs are all found -/
theorem mem_runs_some {i : Nat} {mid : List Nat} (hm : ∀ b ∈ mid, N.stIx b = none) :
    ∀ (acc : List Nat) {r j : Nat} {post : List Nat}, N.stIx r = some j →
      (i, j, acc.reverse ++ mid) ∈ N.runs (some (i, acc)) (mid ++ r :: post) := by
  induction mid with
  | nil =>
    intro acc r j post hr
    simp [runs, hr]
  | cons b mid ih =>
    intro acc r j post hr
    rw [List.cons_append, runs, hm b List.mem_cons_self]
    have := ih (fun c hc => hm c (List.mem_cons_of_mem _ hc)) (b :: acc) (r := r) (j := j)
      (post := post) hr
    simpa using this

theorem mem_runs {pre mid post : List Nat} {r1 r2 i j : Nat} (h1 : N.stIx r1 = some i)
    (hm : ∀ b ∈ mid, N.stIx b = none) (h2 : N.stIx r2 = some j) (cur : Option (Nat × List Nat)) :
    (i, j, mid) ∈ N.runs cur (pre ++ r1 :: (mid ++ r2 :: post)) := by
  induction pre generalizing cur with
  | nil =>
    have := mem_runs_some hm [] (i := i) (post := post) h2
    cases cur with
    | none => simpa [runs, h1] using this
    | some q =>
      obtain ⟨k, acc⟩ := q
      simp only [List.nil_append, runs, h1]
      exact List.mem_cons_of_mem _ (by simpa using this)
  | cons a pre ih =>
    rw [List.cons_append]
    cases cur with
    | none =>
      rw [runs]
      split
      · exact ih _
      · exact ih _
    | some q =>
      obtain ⟨k, acc⟩ := q
      rw [runs]
      split
      · exact ih _
      · exact List.mem_cons_of_mem _ (ih _)

theorem run_coded (W : N.NetOK good) (S : N.SheetOK good R cs) {c : CodedSection} (hc : c ∈ cs)
    {x x2 : String} {m : List RawRow} (h : LeadsTo N.stationTable (N.sec c).rows x x2 m) :
    ∃ i j e e' l, (i, j, l) ∈ R ∧ N.stations[i]? = some e ∧ e.1 = x ∧ N.stations[j]? = some e' ∧
      e'.1 = x2 ∧ m.map (·.path) = l.map (nameOf N.names) := by
  obtain ⟨pre, r1, r2, post, e, h1, h2, h3⟩ := h
  rw [List.append_assoc, List.cons_append] at e
  obtain ⟨l1, l2, e1, -, q1⟩ := List.map_eq_append_iff.1 e
  obtain ⟨y1, l3, rfl, rfl, q2⟩ := List.map_eq_cons_iff.1 q1
  obtain ⟨lm, l4, rfl, rfl, q3⟩ := List.map_eq_append_iff.1 q2
  obtain ⟨y2, l5, rfl, rfl, -⟩ := List.map_eq_cons_iff.1 q3
  obtain ⟨i, ei, hi, hxi, si⟩ := stIx_belongs W (b := y1.1) h1
  obtain ⟨j, ej, hj, hxj, sj⟩ := stIx_belongs W (b := y2.1) h2
  have hm : ∀ b ∈ lm.map Prod.fst, N.stIx b = none := by
    intro b hb
    obtain ⟨y, hy, rfl⟩ := List.mem_map.1 hb
    rw [stIx_none, ← Bool.not_eq_true, ← inStation_coded W.names]
    exact h3 (N.row y) (List.mem_map.2 ⟨y, hy, rfl⟩)
  have hr := mem_runs (pre := l1.map Prod.fst) (post := l5.map Prod.fst) si hm sj none
  have hc' := S.runs c hc
  rw [List.all_eq_true] at hc'
  have := hc' (i, j, lm.map Prod.fst) (by rw [e1]; simpa using hr)
  simp only [List.any_eq_true, Bool.and_eq_true, Nat.beq_eq, decide_eq_true_eq] at this
  obtain ⟨⟨i', j', l'⟩, hy, ⟨q1, q2⟩, q3⟩ := this
  simp only at q1 q2 q3
  subst q1 q2 q3
  exact ⟨i, j, ei, ej, _, hy, hi, hxi, hj, hxj, by simp only [List.map_map]; rfl⟩

theorem secWf (W : N.NetOK good) {c : CodedSection} (F : SecFacts N good c) : (N.sec c).Wf := by
  refine ⟨show PlainLine (line "####") from ⟨by decide +kernel, by decide +kernel⟩, F.type, F.number,
    F.name, F.start, ?_, F.stop⟩
  intro r hr
  obtain ⟨x, -, rfl⟩ := List.mem_map.1 hr
  have := W.names.plain x.1
  exact ⟨⟨this.1, this.2.1⟩, this.2.2⟩

/-- **The checks imply the conditions of `GoodSheet`.** -/
theorem goodSheet_of_checks (W : N.NetOK good) (S : N.SheetOK good R cs) {t1 : String}
    (ht : clockText t1 = true) : GoodSheet (cs.map N.sec) N.stationTable N.pathTable t1 where
  sections := by
    intro s hs
    obtain ⟨c, hc, rfl⟩ := List.mem_map.1 hs
    exact secWf W (secFacts (S.sections c hc))
  numbers := by
    have h := nodupNat_nodup S.numbers
    rw [List.map_map]
    have e : cs.map (Section.train ∘ N.sec) = cs.map (fun c => (c.number : Int)) :=
      List.map_congr_left fun c hc => (secFacts (S.sections c hc)).train
    rw [e]
    have := h.map (f := fun n : Nat => (n : Int)) fun a b h => by simpa using h
    rwa [List.map_map] at this
  types := by
    intro s hs
    obtain ⟨c, hc, rfl⟩ := List.mem_map.1 hs
    exact (secFacts (S.sections c hc)).known
  stations := wfStations_coded W
  names := by
    intro e he
    obtain ⟨e0, he0, rfl⟩ := List.mem_map.1 he
    exact W.texts e0 he0
  blocks := by
    intro s hs
    obtain ⟨c, hc, rfl⟩ := List.mem_map.1 hs
    have := (secFacts (S.sections c hc)).blocks.map W.names.inj
    rw [List.map_map] at this
    simpa [sec, Function.comp_def, row] using this
  once := by
    intro s hs a ha b hb x hx hx'
    obtain ⟨c, hc, rfl⟩ := List.mem_map.1 hs
    obtain ⟨y, hy, rfl⟩ := List.mem_map.1 ha
    obtain ⟨z, hz, rfl⟩ := List.mem_map.1 hb
    obtain ⟨i, ei, hi, hxi, si⟩ := stIx_belongs W (b := y.1) hx
    obtain ⟨j, ej, hj, hxj, sj⟩ := stIx_belongs W (b := z.1) hx'
    have := station_pos W hi hj (hxi.trans hxj.symm)
    subst this
    have hn := (secFacts (S.sections c hc)).once
    have hp := (secFacts (S.sections c hc)).blocks
    by_contra hne
    have hne : y.1 ≠ z.1 := fun e => hne (by show nameOf _ y.1 = nameOf _ z.1; rw [e])
    unfold List.Nodup at hn
    rw [List.pairwise_filterMap] at hn
    have hy' : y.1 ∈ c.rows.map Prod.fst := List.mem_map.2 ⟨y, hy, rfl⟩
    have hz' : z.1 ∈ c.rows.map Prod.fst := List.mem_map.2 ⟨z, hz, rfl⟩
    have key : ∀ {l : List Nat} {u v : Nat}, l.Pairwise (fun a a' => ∀ b, N.stIx a = some b →
        ∀ b', N.stIx a' = some b' → b ≠ b') → u ∈ l → v ∈ l → u ≠ v → N.stIx u = some i →
        N.stIx v = some i → False := by
      intro l u v h hu hv huv h1 h2
      induction h with
      | nil => cases hu
      | @cons w l h0 _ ih =>
        rcases List.mem_cons.1 hu with rfl | hu2
        · rcases List.mem_cons.1 hv with rfl | hv2
          · exact huv rfl
          · exact h0 _ hv2 i h1 i h2 rfl
        · rcases List.mem_cons.1 hv with rfl | hv2
          · exact h0 _ hu2 i h2 i h1 rfl
          · exact ih hu2 hv2
    exact key hn hy' hz' hne si sj
  leaves := by
    intro s hs
    obtain ⟨c, hc, rfl⟩ := List.mem_map.1 hs
    obtain ⟨x, hx, h⟩ := (secFacts (S.sections c hc)).leaves
    obtain ⟨pre, post, e⟩ := mem_steps.1 hx
    obtain ⟨l1, l2, e1, -, h2⟩ := List.map_eq_append_iff.1 e
    obtain ⟨y, l3, rfl, h3, h4⟩ := List.map_eq_cons_iff.1 h2
    obtain ⟨z, l4, rfl, h5, -⟩ := List.map_eq_cons_iff.1 h4
    refine ⟨N.row y, N.row z, ⟨l1.map N.row, l4.map N.row, ?_⟩, ?_⟩
    · show c.rows.map N.row = _
      rw [e1]; simp
    · exact (inStation_coded W.names).2 (h3 ▸ h)
  joined := by
    intro s hs a b hf
    obtain ⟨c, hc, rfl⟩ := List.mem_map.1 hs
    obtain ⟨x, y, hx, hy, hxy, rfl, rfl⟩ := follows_coded hf
    have F := secFacts (S.sections c hc)
    have hg := W.good _ (F.joined _ hxy)
    constructor
    · unfold stepOK at hg
      simp only [Bool.and_eq_true, Bool.not_eq_true', List.isEmpty_eq_false_iff] at hg
      obtain ⟨z, hz⟩ := List.exists_mem_of_ne_nil _ hg.1
      obtain ⟨hz1, hz2⟩ := List.mem_filter.1 hz
      exact ⟨_, List.mem_map.2 ⟨z, hz1, rfl⟩, (joins_iff W.names).1 hz2⟩
    · have := F.speed x hx
      unfold speedOK at this
      show x.2.speed = _ ∨ x.2.speed = _
      split at this
      · rename_i sp e
        rw [e]
        simpa using this
      · cases this
  switches := by
    intro s hs a b hf hst row hrow hj
    obtain ⟨c, hc, rfl⟩ := List.mem_map.1 hs
    obtain ⟨x, y, hx, hy, hxy, rfl, rfl⟩ := follows_coded hf
    have F := secFacts (S.sections c hc)
    have hg := W.good _ (F.joined _ hxy)
    obtain ⟨z, hz, rfl⟩ := List.mem_map.1 hrow
    have hj' := (joins_iff W.names (x := z) (a := x.1) (b := y.1)).2 hj
    unfold stepOK at hg
    simp only [Bool.and_eq_true, Bool.or_eq_true, Bool.not_eq_true', List.all_eq_true] at hg
    rcases hg.2 with h | h
    · rcases hst with h' | h'
      · have := (inStation_coded W.names (b := x.1)).1 h'
        rw [h.1] at this; cases this
      · have := (inStation_coded W.names (b := y.1)).1 h'
        rw [h.2] at this; cases this
    · exact clearCell_iff (h z (List.mem_filter.2 ⟨hz, hj'⟩))
  start := clock_of_check ht
  times := by
    intro s hs a ha hst x hx
    obtain ⟨c, hc, rfl⟩ := List.mem_map.1 hs
    obtain ⟨y, hy, rfl⟩ := List.mem_map.1 ha
    rcases (secFacts (S.sections c hc)).times y hy with h | h
    · have := (inStation_coded W.names (b := y.1)).1 hst
      rw [h] at this; cases this
    · rcases hx with hx | hx
      · have e : y.2.dep = some x := hx
        have := h.1
        rw [e] at this
        exact clock_of_check this
      · have e : y.2.approxEnter = some x := hx
        have := h.2
        rw [e] at this
        exact clock_of_check this
  meet := by
    intro s hs s' hs' hp
    obtain ⟨c, hc, rfl⟩ := List.mem_map.1 hs
    obtain ⟨c', hc', rfl⟩ := List.mem_map.1 hs'
    have e : (N.sec c).train = c.number := (secFacts (S.sections c hc)).train
    have e' : (N.sec c').train = c'.number := (secFacts (S.sections c' hc')).train
    have h := S.stock
    unfold stockOK at h
    simp only [List.all_eq_true, Bool.or_eq_true, Bool.and_eq_true, Bool.not_eq_true'] at h
    rcases h c hc c' hc' with h | ⟨⟨h, -⟩, -⟩
    · rw [e, e'] at hp
      have : c'.number = 10 * c.number + 9 := by omega
      rw [this, Nat.beq_refl] at h
      cases h
    · rcases h with h | h
      · obtain ⟨b, hb⟩ := over_handsOver h (.inr hp)
        exact ⟨b, .inl hb⟩
      · obtain ⟨b, hb⟩ := over_handsOver h (.inl hp)
        exact ⟨b, .inr hb⟩
  place := by
    intro s hs s' hs' b hb
    obtain ⟨c, hc, rfl⟩ := List.mem_map.1 hs
    obtain ⟨c', hc', rfl⟩ := List.mem_map.1 hs'
    obtain ⟨h1, h2, x, hx, rfl⟩ := handsOver_coded S W.names hc hc' hb
    have hov : N.overOK c c' = true := by
      have h := S.stock
      unfold stockOK at h
      simp only [List.all_eq_true, Bool.or_eq_true, Bool.and_eq_true, Bool.not_eq_true'] at h
      rcases h2 with h2 | h2
      · rcases h c' hc' c hc with h | ⟨-, h⟩
        · have : c.number = 10 * c'.number + 9 := by omega
          rw [this, Nat.beq_refl] at h
          cases h
        · exact h
      · rcases h c hc c' hc' with h | ⟨⟨-, h⟩, -⟩
        · have : c'.number = 10 * c.number + 9 := by omega
          rw [this, Nat.beq_refl] at h
          cases h
        · exact h
    unfold overOK at hov
    rw [h1, hx] at hov
    simp only [Bool.not_true, Bool.false_or, Bool.and_eq_true] at hov
    refine ⟨(inStation_coded W.names).2 hov.1, ?_⟩
    intro a ha
    have ha : (c'.rows.map N.row).head? = some a := ha
    rw [List.head?_map, hx] at ha
    cases ha
    exact Option.isSome_iff_exists.1 hov.2
  lines := by
    intro s hs s' hs' x x2 m m' hm hm' hsub
    obtain ⟨c, hc, rfl⟩ := List.mem_map.1 hs
    obtain ⟨c', hc', rfl⟩ := List.mem_map.1 hs'
    obtain ⟨i, j, e, f, l, hl, hi, hxi, hj, hxj, q⟩ := run_coded W S hc hm
    obtain ⟨i', j', e', f', l', hl', hi', hxi', hj', hxj', q'⟩ := run_coded W S hc' hm'
    have e1 := station_pos W hi hi' (hxi.trans hxi'.symm)
    have e2 := station_pos W hj hj' (hxj.trans hxj'.symm)
    subst e1 e2
    have h := S.lines
    unfold runsOK at h
    simp only [List.all_eq_true, Bool.or_eq_true, Bool.not_eq_true', decide_eq_true_eq] at h
    rcases h _ hl _ hl' with (h | h) | h
    · simp at h
    · rw [← Bool.not_eq_true, List.all_eq_true] at h
      refine absurd ?_ h
      intro z hz
      rw [any_beq]
      have : nameOf N.names z ∈ m.map (·.path) := by rw [q]; exact List.mem_map.2 ⟨z, hz, rfl⟩
      obtain ⟨a, ha, ea⟩ := List.mem_map.1 this
      have := hsub a ha
      rw [q', ea] at this
      obtain ⟨w, hw, ew⟩ := List.mem_map.1 this
      exact W.names.inj ew ▸ hw
    · simp only at h
      rw [q, q', h]

end CodedNet

end Verif
