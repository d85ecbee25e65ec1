import Verif.Props.Stops
import Verif.Props.Following
import Verif.Proofs.Families2
import Verif.Proofs.Bridge

/-!
# C32: conflicts at switches
-/

namespace Verif

/-! ## Switches of a train at a station -/

/-- the switches written in a cell: `12,5` is read as the number 12.5 and means switches 12 and 5;
a whole number is one switch -/
def CellSwitches (c : SwitchCell) (S : List Int) : Prop :=
  match c with
  | .float a b => S = if b = 0 then [(a : Int)] else [(a : Int), (b : Int)]
  | .textInt n => S = [n]
  | .textTuple l => S = l
  | _ => False

/-- the switches between two blocks; none if the table does not join them -/
def SwitchesOf (table : List PathRow) (a b : String) (S : List Int) : Prop :=
  ((∀ row ∈ table, ¬ Joins row a b) ∧ S = []) ∨
  ∃ row ∈ table, Joins row a b ∧ CellSwitches row.switches S

/-- the switches that the train passes when it enters the station: those between the block of the
station and the block before; none at its first important station -/
def InSwitches (table : List PathRow) (tt : List Row) (s : String) (S : List Int) : Prop :=
  ∃ pre r post, tt = pre ++ r :: post ∧ r.station = some s ∧
    (((∀ x ∈ pre, x.station = none) ∧ S = []) ∨
     ((∃ x ∈ pre, x.station ≠ none) ∧ ∃ pre' r0, pre = pre' ++ [r0] ∧
        SwitchesOf table r0.path r.path S))

/-- the switches that the train passes when it leaves the station: those between the block of the
station and the next block; none at its last important station -/
def OutSwitches (table : List PathRow) (tt : List Row) (s : String) (S : List Int) : Prop :=
  ∃ pre r post, tt = pre ++ r :: post ∧ r.station = some s ∧
    (((∀ x ∈ post, x.station = none) ∧ S = []) ∨
     ((∃ x ∈ post, x.station ≠ none) ∧ ∃ r1 post', post = r1 :: post' ∧
        SwitchesOf table r.path r1.path S))

/-- the switches of a train at a station, in or out -/
def SwitchesAt (td : Trains) (table : List PathRow) (t : Int) (s p : String) (S : List Int) : Prop :=
  ∃ tt, TableOf td t tt ∧
    ((p = "in" ∧ InSwitches table tt s S) ∨ (p = "out" ∧ OutSwitches table tt s S))

/-! ## Reading the table -/

theorem mem_positions {col : List String} {b : String} {i : Nat} :
    i ∈ positions col b ↔ col[i]? = some b := by
  unfold positions
  rw [List.mem_filter, List.mem_range, decide_eq_true_eq]
  constructor
  · exact fun h => h.2
  · intro h
    exact ⟨(List.getElem?_eq_some_iff.1 h).1, h⟩

theorem mem_common_positions {table : List PathRow} {a b : String} (hab : a ≠ b) {i : Nat} :
    i ∈ commonElements (blockIndices table a b).2 (blockIndices table a b).1 ↔
      ∃ row, table[i]? = some row ∧ Joins row a b := by
  unfold commonElements blockIndices
  simp only [List.mem_filter, List.mem_append, mem_positions, decide_eq_true_eq, List.getElem?_map]
  cases table[i]? with
  | none => simp
  | some row =>
    simp only [Option.map_some, Option.some.injEq, exists_eq_left', Joins]
    constructor
    · rintro ⟨h1 | h1, h2 | h2⟩
      · exact absurd (h2.symm.trans h1) hab
      · exact .inr ⟨h1, h2⟩
      · exact .inl ⟨h2, h1⟩
      · exact absurd (h2.symm.trans h1) hab
    · rintro (⟨h1, h2⟩ | ⟨h1, h2⟩)
      · exact ⟨.inr h2, .inl h1⟩
      · exact ⟨.inl h1, .inr h2⟩

/-- a loop whose state is overwritten in every round -/
theorem loop_last {α σ : Type} {xs : List α} {f : α → Py σ} {s v : σ}
    (h : loop xs (fun _ x => f x) s = .ok v) :
    (xs = [] ∧ v = s) ∨ ∃ x ∈ xs, f x = .ok v := by
  rcases List.eq_nil_or_concat xs with rfl | ⟨l, x, rfl⟩
  · simp only [loop, Except.ok.injEq] at h
    exact .inl ⟨rfl, h.symm⟩
  · rw [List.concat_eq_append, loop_append] at h
    obtain ⟨w, _, h⟩ := bind_ok h
    simp only [loop] at h
    cases hf : f x with
    | error e => rw [hf] at h; cases h
    | ok v' =>
      rw [hf] at h
      cases h
      exact .inr ⟨x, by simp, hf⟩

/-- cells that mean the same to the code: no whole number stored as a `float` -/
def NoWholeFloat (table : List PathRow) : Prop := ∀ row ∈ table, ∀ a, row.switches ≠ .float a 0

/-- rows joining the same blocks have the same switches -/
def SameCells (table : List PathRow) : Prop :=
  ∀ row ∈ table, ∀ row' ∈ table, ∀ a b, Joins row a b → Joins row' a b →
    row.switches = row'.switches

theorem evalSwitch_iff {c : SwitchCell} (h : ∀ a, c ≠ .float a 0) {S : List Int} :
    evalSwitch c = .ok S ↔ CellSwitches c S := by
  cases c with
  | float a b =>
    have hb : b ≠ 0 := by rintro rfl; exact h a rfl
    simp only [evalSwitch, CellSwitches, if_neg hb, Except.ok.injEq, eq_comm]
  | _ => simp [evalSwitch, CellSwitches, eq_comm]

theorem label_row {α : Type} {xs : List α} {i : Nat} {x : α} :
    label xs (i : Int) = .ok x ↔ xs[i]? = some x := by
  unfold label
  rw [if_neg (by omega)]
  simp only [Int.toNat_natCast]
  cases xs[i]? with
  | none => simp
  | some y => simp

theorem joins_comm {r : PathRow} {a b : String} (h : Joins r a b) : Joins r b a := h.symm

theorem switchesBetween_ok {table : List PathRow} (hf : NoWholeFloat table) {a b : String}
    (hab : a ≠ b) {S : List Int} (h : switchesBetween table a b = .ok S) :
    SwitchesOf table a b S := by
  unfold switchesBetween at h
  simp only at h
  rcases loop_last h with ⟨h1, rfl⟩ | ⟨i, hi, he⟩
  · left
    refine ⟨?_, rfl⟩
    intro row hrow hj
    obtain ⟨i, hi⟩ := List.mem_iff_getElem?.1 hrow
    have := (mem_common_positions hab).2 ⟨row, hi, hj⟩
    rw [h1] at this; cases this
  · right
    obtain ⟨row, hrow, hj⟩ := (mem_common_positions hab).1 hi
    obtain ⟨r, hr, he⟩ := bind_ok he
    rw [label_row, hrow] at hr
    cases hr
    have hm := List.mem_of_getElem? hrow
    exact ⟨row, hm, hj, (evalSwitch_iff (hf row hm)).1 he⟩

theorem switchesOf_unique {table : List PathRow} (hs : SameCells table) {a b : String}
    {S S' : List Int} (h : SwitchesOf table a b S) (h' : SwitchesOf table a b S') : S = S' := by
  rcases h with ⟨h1, rfl⟩ | ⟨row, hr, hj, hc⟩
  · rcases h' with ⟨_, rfl⟩ | ⟨row', hr', hj', _⟩
    · rfl
    · exact absurd hj' (h1 row' hr')
  · rcases h' with ⟨h1, rfl⟩ | ⟨row', hr', hj', hc'⟩
    · exact absurd hj (h1 row hr)
    · rw [← hs row hr row' hr' a b hj hj'] at hc'
      unfold CellSwitches at hc hc'
      cases hw : row.switches <;> rw [hw] at hc hc' <;> simp only at hc hc' <;>
        exact hc.trans hc'.symm

/-- a readable cell -/
def Readable (c : SwitchCell) : Prop := ∃ S, evalSwitch c = .ok S

theorem switchesBetween_found {table : List PathRow} {a b : String} (hab : a ≠ b)
    (h : ∀ row ∈ table, Joins row a b → Readable row.switches) :
    ∃ S, switchesBetween table a b = .ok S := by
  unfold switchesBetween
  simp only
  suffices hh : ∀ (pos : List Nat) (S : List Int), (∀ i ∈ pos, ∃ row, table[i]? = some row ∧
      Joins row a b) → ∃ S', loop pos (fun _ i => do
        let r ← label table (i : Int)
        evalSwitch r.switches) S = .ok S' from
    hh _ _ fun i hi => (mem_common_positions hab).1 hi
  intro pos
  induction pos with
  | nil => exact fun S _ => ⟨S, rfl⟩
  | cons i pos ih =>
    intro S hp
    obtain ⟨row, hrow, hj⟩ := hp i List.mem_cons_self
    obtain ⟨S1, hS1⟩ := h row (List.mem_of_getElem? hrow) hj
    have he : (do
        let r ← label table (i : Int)
        evalSwitch r.switches : Py (List Int)) = .ok S1 := by
      rw [label_row.2 hrow]; exact hS1
    simp only [loop]
    rw [he]
    exact ih S1 fun x hx => hp x (List.mem_cons_of_mem _ hx)

/-! ## The loops of `z_in` and `z_out` -/

theorem loop_skip {α σ : Type} {l : List α} {f : σ → α → Py σ} {s : σ}
    (h : ∀ x ∈ l, f s x = .ok s) : loop l f s = .ok s := by
  induction l with
  | nil => rfl
  | cons x l ih =>
    simp only [loop, h x List.mem_cons_self]
    exact ih fun y hy => h y (List.mem_cons_of_mem _ hy)

/-- the state after the block of the station -/
def afterBlock (x : Py ZState) : Py (List Int) := do
  let z ← x
  z.finish

/-- A loop over the blocks that does something at one block only; `g` is what is done there. -/
theorem z_loop {blocks : List String} {pre post : List String} {b : String}
    (hb : blocks = pre ++ b :: post) (hnd : blocks.Nodup)
    {f : ZState → String × Nat → Py ZState} {g : Nat → Py ZState}
    (hret : ∀ v e, f (.returned v) e = .ok (.returned v))
    (hother : ∀ sw e, e.1 ≠ b → f (.running sw) e = .ok (.running sw))
    (hat : ∀ i, f (.running none) (b, i) = g i) :
    (loop blocks.zipIdx f (.running none) >>= fun z => z.finish) =
      (g pre.length >>= fun z => z.finish) := by
  subst hb
  rw [List.zipIdx_append, loop_append]
  have hpre : ∀ x ∈ pre, x ≠ b := by
    rintro x hx rfl
    exact (List.nodup_append.1 hnd).2.2 x hx x (by simp) rfl
  have hpost : ∀ x ∈ post, x ≠ b := by
    rintro x hx rfl
    have := (List.nodup_append.1 hnd).2.1
    rw [List.nodup_cons] at this
    exact this.1 hx
  have h1 : loop pre.zipIdx f (.running none) = .ok (.running none) := by
    refine loop_skip fun x hx => hother _ _ (hpre _ ?_)
    exact List.fst_mem_of_mem_zipIdx hx
  rw [h1]
  simp only [bind, Except.bind, List.zipIdx_cons, loop, Nat.zero_add]
  rw [hat]
  cases g pre.length with
  | error e => rfl
  | ok z =>
    simp only
    have h2 : loop (post.zipIdx (pre.length + 1)) f z = .ok z := by
      refine loop_skip fun x hx => ?_
      cases z with
      | returned v => exact hret v x
      | running sw => exact hother sw x (hpost _ (List.fst_mem_of_mem_zipIdx hx))
    rw [h2]

theorem stations_split {pre post : List Row} {r : Row} {s : String} (hs : r.station = some s) :
    trainImportantStations (pre ++ r :: post) =
      pre.filterMap (·.station) ++ s :: post.filterMap (·.station) := by
  unfold trainImportantStations
  simp [List.filterMap_append, hs]

theorem stations_index {pre post : List Row} {r : Row} {s : String}
    (ho : OnceEach (pre ++ r :: post)) (hs : r.station = some s) :
    index (trainImportantStations (pre ++ r :: post)) s =
      .ok (pre.filterMap (·.station)).length := by
  rw [index_ok]
  refine ⟨_, _, stations_split hs, ?_, rfl⟩
  intro hin
  have h := ho
  unfold OnceEach at h
  have e : (pre ++ r :: post).filterMap (·.station) =
    pre.filterMap (·.station) ++ s :: post.filterMap (·.station) := by
    simp [List.filterMap_append, hs]
  rw [e, List.nodup_append] at h
  exact h.2.2 s hin s (by simp) rfl

theorem zIn_eq {table : List PathRow} {tt pre post : List Row} {r : Row} {s : String}
    (ht : tt = pre ++ r :: post) (ho : OnceEach tt) (hb : BlocksOnce tt) (hs : r.station = some s) :
    zIn table s (trainImportantStations tt) [r.path] (tt.map (·.path)) =
      if pre.filterMap (·.station) = [] then .ok []
      else match pre.getLast? with
        | some r0 => switchesBetween table r0.path r.path
        | .none => .ok [] := by
  have hblocks : tt.map (·.path) = pre.map (·.path) ++ r.path :: post.map (·.path) := by
    rw [ht]; simp
  have hk : index (trainImportantStations tt) s = .ok (pre.filterMap (·.station)).length := by
    subst ht; exact stations_index ho hs
  have hnth : nth (tt.map (·.path)) pre.length = .ok r.path := by
    rw [hblocks]; simp [nth]
  unfold zIn
  rw [z_loop hblocks hb (b := r.path) (g := fun i => do
      let next ← nth (tt.map (·.path)) i
      let k ← index (trainImportantStations tt) s
      if k = 0 then .ok (.returned [])
      else do
        let prev ← blockBefore (tt.map (·.path)) i
        let v ← switchesBetween table prev next
        .ok (.running (some v)))
    (fun v e => rfl)
    (fun sw e he => by simp [nth, bind, Except.bind, he])
    (fun i => by simp [nth, bind, Except.bind])]
  simp only [List.length_map, hnth, hk, bind, Except.bind, List.length_eq_zero_iff]
  by_cases h0 : pre.filterMap (·.station) = []
  · rw [if_pos h0, if_pos h0]; rfl
  · rw [if_neg h0, if_neg h0]
    rcases List.eq_nil_or_concat pre with rfl | ⟨pre', r0, rfl⟩
    · simp at h0
    · rw [List.concat_eq_append] at hblocks ⊢
      simp only [List.getLast?_concat]
      have hbb : blockBefore (tt.map (·.path)) (pre' ++ [r0]).length = .ok r0.path := by
        unfold blockBefore
        rw [if_neg (by simp)]
        rw [hblocks]
        simp [nth]
      rw [hbb]
      simp only
      cases switchesBetween table r0.path r.path with
      | error e => rfl
      | ok v => rfl

theorem zOut_eq {table : List PathRow} {tt pre post : List Row} {r : Row} {s : String}
    (ht : tt = pre ++ r :: post) (ho : OnceEach tt) (hb : BlocksOnce tt) (hs : r.station = some s) :
    zOut table s (trainImportantStations tt) [r.path] (tt.map (·.path)) =
      if post.filterMap (·.station) = [] then .ok []
      else match post.head? with
        | some r1 => switchesBetween table r.path r1.path
        | .none => .ok [] := by
  have hblocks : tt.map (·.path) = pre.map (·.path) ++ r.path :: post.map (·.path) := by
    rw [ht]; simp
  have hk : index (trainImportantStations tt) s = .ok (pre.filterMap (·.station)).length := by
    subst ht; exact stations_index ho hs
  have hlen : (trainImportantStations tt).length =
      (pre.filterMap (·.station)).length + (post.filterMap (·.station)).length + 1 := by
    rw [ht, stations_split hs]; simp; omega
  have hnth : nth (tt.map (·.path)) pre.length = .ok r.path := by
    rw [hblocks]; simp [nth]
  unfold zOut
  rw [z_loop hblocks hb (b := r.path) (g := fun i => do
      let prev ← nth (tt.map (·.path)) i
      let k ← index (trainImportantStations tt) s
      if k = (trainImportantStations tt).length - 1 then .ok (.returned [])
      else do
        let next ← nth (tt.map (·.path)) (i + 1)
        let v ← switchesBetween table prev next
        .ok (.running (some v)))
    (fun v e => rfl)
    (fun sw e he => by simp [nth, bind, Except.bind, he])
    (fun i => by simp [nth, bind, Except.bind])]
  simp only [List.length_map, hnth, hk, bind, Except.bind]
  have hc : (pre.filterMap (·.station)).length = (trainImportantStations tt).length - 1 ↔
      post.filterMap (·.station) = [] := by
    rw [hlen, ← List.length_eq_zero_iff]; omega
  by_cases h0 : post.filterMap (·.station) = []
  · rw [if_pos h0, if_pos (hc.2 h0)]; rfl
  · rw [if_neg h0, if_neg (fun h => h0 (hc.1 h))]
    cases post with
    | nil => simp at h0
    | cons r1 post' =>
      have hbb : nth (tt.map (·.path)) (pre.length + 1) = .ok r1.path := by
        rw [hblocks]; simp [nth]
      rw [hbb]
      simp only [List.head?_cons]
      cases switchesBetween table r.path r1.path with
      | error e => rfl
      | ok v => rfl

theorem once_split {tt pre post pre' post' : List Row} {r r' : Row} {s : String}
    (ho : OnceEach tt) (h : tt = pre ++ r :: post) (h' : tt = pre' ++ r' :: post')
    (hs : r.station = some s) (hs' : r'.station = some s) : pre = pre' ∧ r = r' ∧ post = post' := by
  have key : ∀ {pre post pre' post' : List Row} {r r' : Row}, OnceEach (pre ++ r :: post) →
      pre ++ r :: post = pre' ++ r' :: post' → r.station = some s → r'.station = some s →
      pre = pre' ∧ r = r' ∧ post = post' := by
    intro pre
    induction pre with
    | nil =>
      intro post pre' post' r r' ho e hs hs'
      cases pre' with
      | nil => simp at e; exact ⟨rfl, e⟩
      | cons a l =>
        exfalso
        simp only [List.nil_append, List.cons_append, List.cons.injEq] at e
        obtain ⟨rfl, rfl⟩ := e
        unfold OnceEach at ho
        simp [List.filterMap_append, hs, hs'] at ho
    | cons x pre ih =>
      intro post pre' post' r r' ho e hs hs'
      cases pre' with
      | nil =>
        exfalso
        simp only [List.nil_append, List.cons_append, List.cons.injEq] at e
        obtain ⟨rfl, rfl⟩ := e
        unfold OnceEach at ho
        simp [List.filterMap_append, hs, hs'] at ho
      | cons a l =>
        simp only [List.cons_append, List.cons.injEq] at e
        obtain ⟨rfl, e⟩ := e
        have ho' : OnceEach (pre ++ r :: post) := by
          unfold OnceEach at ho ⊢
          rw [List.cons_append, List.filterMap_cons] at ho
          split at ho
          · exact ho
          · exact ho.of_cons
        obtain ⟨rfl, h2, h3⟩ := ih ho' e hs hs'
        exact ⟨rfl, h2, h3⟩
  subst h
  exact key ho h' hs hs'

theorem filterMap_nil {l : List Row} : l.filterMap (·.station) = [] ↔ ∀ x ∈ l, x.station = none := by
  rw [List.filterMap_eq_nil_iff]

theorem blocks_ne {a b : List Row} {r r' : Row} (h : BlocksOnce (a ++ r :: r' :: b)) :
    r.path ≠ r'.path := by
  unfold BlocksOnce at h
  rw [List.map_append, List.nodup_append] at h
  have := h.2.1
  simp only [List.map_cons, List.nodup_cons, List.mem_cons, not_or] at this
  exact this.1.1

theorem zIn_spec {table : List PathRow} (hf : NoWholeFloat table) (hsame : SameCells table)
    {tt : List Row} (ho : OnceEach tt) (hb : BlocksOnce tt) {r : Row} (hr : r ∈ tt) {s : String}
    (hs : r.station = some s) {S : List Int}
    (h : zIn table s (trainImportantStations tt) [r.path] (tt.map (·.path)) = .ok S) (S' : List Int) :
    InSwitches table tt s S' ↔ S' = S := by
  obtain ⟨pre, post, ht⟩ := List.append_of_mem hr
  rw [zIn_eq ht ho hb hs] at h
  have hfirst : InSwitches table tt s S := by
    refine ⟨pre, r, post, ht, hs, ?_⟩
    split at h
    · rename_i h0
      cases h
      exact .inl ⟨filterMap_nil.1 h0, rfl⟩
    · rename_i h0
      right
      refine ⟨by
        by_contra hc
        push Not at hc
        exact h0 (filterMap_nil.2 hc), ?_⟩
      rcases List.eq_nil_or_concat pre with rfl | ⟨pre', r0, rfl⟩
      · simp at h0
      · rw [List.concat_eq_append] at h ht ⊢
        rw [List.getLast?_concat] at h
        simp only at h
        refine ⟨pre', r0, rfl, switchesBetween_ok hf ?_ h⟩
        rw [ht] at hb
        refine blocks_ne (a := pre') (b := post) ?_
        simpa using hb
  constructor
  · rintro ⟨pre1, r1, post1, ht1, hs1, hc1⟩
    obtain ⟨pre2, r2, post2, ht2, hs2, hc2⟩ := hfirst
    obtain ⟨rfl, rfl, rfl⟩ := once_split ho ht1 ht2 hs1 hs2
    rcases hc1 with ⟨h1, rfl⟩ | ⟨⟨x, hx, hx'⟩, p1, q1, e1, h1⟩
    · rcases hc2 with ⟨_, rfl⟩ | ⟨⟨x, hx, hx'⟩, _⟩
      · rfl
      · exact absurd (h1 x hx) hx'
    · rcases hc2 with ⟨h2, rfl⟩ | ⟨_, p2, q2, e2, h2⟩
      · exact absurd (h2 x hx) hx'
      · rw [e1] at e2
        have := List.append_inj' e2 rfl
        simp only [List.cons.injEq, and_true] at this
        obtain ⟨rfl, rfl⟩ := this
        exact switchesOf_unique hsame h1 h2
  · rintro rfl; exact hfirst

theorem zOut_spec {table : List PathRow} (hf : NoWholeFloat table) (hsame : SameCells table)
    {tt : List Row} (ho : OnceEach tt) (hb : BlocksOnce tt) {r : Row} (hr : r ∈ tt) {s : String}
    (hs : r.station = some s) {S : List Int}
    (h : zOut table s (trainImportantStations tt) [r.path] (tt.map (·.path)) = .ok S)
    (S' : List Int) : OutSwitches table tt s S' ↔ S' = S := by
  obtain ⟨pre, post, ht⟩ := List.append_of_mem hr
  rw [zOut_eq ht ho hb hs] at h
  have hfirst : OutSwitches table tt s S := by
    refine ⟨pre, r, post, ht, hs, ?_⟩
    split at h
    · rename_i h0
      cases h
      exact .inl ⟨filterMap_nil.1 h0, rfl⟩
    · rename_i h0
      right
      refine ⟨by
        by_contra hc
        push Not at hc
        exact h0 (filterMap_nil.2 hc), ?_⟩
      cases post with
      | nil => simp at h0
      | cons r1 post' =>
        simp only [List.head?_cons] at h
        refine ⟨r1, post', rfl, switchesBetween_ok hf ?_ h⟩
        rw [ht] at hb
        exact blocks_ne hb
  constructor
  · rintro ⟨pre1, r1, post1, ht1, hs1, hc1⟩
    obtain ⟨pre2, r2, post2, ht2, hs2, hc2⟩ := hfirst
    obtain ⟨rfl, rfl, rfl⟩ := once_split ho ht1 ht2 hs1 hs2
    rcases hc1 with ⟨h1, rfl⟩ | ⟨⟨x, hx, hx'⟩, p1, q1, e1, h1⟩
    · rcases hc2 with ⟨_, rfl⟩ | ⟨⟨x, hx, hx'⟩, _⟩
      · rfl
      · exact absurd (h1 x hx) hx'
    · rcases hc2 with ⟨h2, rfl⟩ | ⟨_, p2, q2, e2, h2⟩
      · exact absurd (h2 x hx) hx'
      · rw [e1] at e2
        cases e2
        exact switchesOf_unique hsame h1 h2
  · rintro rfl; exact hfirst

/-! ## The property -/

theorem intersects_iff {a b : List Int} : intersects a b = true ↔ ∃ z, z ∈ a ∧ z ∈ b := by
  simp [intersects]

theorem mem_if_singleton {α : Type} {c : Bool} {x y : α} :
    x ∈ (if c = true then [y] else []) ↔ c = true ∧ x = y := by
  cases c <;> simp

theorem mem_makeJswitch {ttj ttj' : List Row} {s : String} (hs : s ≠ "KO(STM)") {j j' : Int}
    {i i' o o' : List Int} {x : Dict Int String} :
    x ∈ makeJswitchDict ttj ttj' s j j' i i' o o' ↔ ∃ p p' S S',
      ((p = "in" ∧ S = i) ∨ (p = "out" ∧ S = o)) ∧ ((p' = "in" ∧ S' = i') ∨ (p' = "out" ∧ S' = o')) ∧
      (∃ z, z ∈ S ∧ z ∈ S') ∧ x = [(j, p), (j', p')] := by
  unfold makeJswitchDict nonRepeatingPair
  simp only [ne_eq, hs, not_false_eq_true, if_true, List.mem_append, mem_if_singleton]
  simp only [intersects_iff]
  constructor
  · rintro (((⟨h, rfl⟩ | ⟨h, rfl⟩) | ⟨h, rfl⟩) | ⟨h, rfl⟩)
    · exact ⟨_, _, i, i', .inl ⟨rfl, rfl⟩, .inl ⟨rfl, rfl⟩, h, rfl⟩
    · exact ⟨_, _, i, o', .inl ⟨rfl, rfl⟩, .inr ⟨rfl, rfl⟩, h, rfl⟩
    · exact ⟨_, _, o, i', .inr ⟨rfl, rfl⟩, .inl ⟨rfl, rfl⟩, h, rfl⟩
    · exact ⟨_, _, o, o', .inr ⟨rfl, rfl⟩, .inr ⟨rfl, rfl⟩, h, rfl⟩
  · rintro ⟨p, p', S, S', ⟨rfl, rfl⟩ | ⟨rfl, rfl⟩, ⟨rfl, rfl⟩ | ⟨rfl, rfl⟩, h, rfl⟩
    · exact .inl (.inl (.inl ⟨h, rfl⟩))
    · exact .inl (.inl (.inr ⟨h, rfl⟩))
    · exact .inl (.inr ⟨h, rfl⟩)
    · exact .inr ⟨h, rfl⟩

/-- the special stations of the code -/
def specialStations : List String := ["KO(STM)", "KO(IC)", "KO(KS)"]

theorem jswitchPair_spec {td : Trains} {st : Stations} {table : List PathRow}
    (hst : WfStations st) (htag : Tagged st td) (hw : WfTrains td) (hf : NoWholeFloat table)
    (hsame : SameCells table) {s : String} (hs : s ∉ specialStations) {j j' : Int}
    {tt tt' : List Row} (ht : TableOf td j tt) (ht' : TableOf td j' tt') (hc : CallsAt st tt s)
    (hc' : CallsAt st tt' s) {v : List (Dict Int String)}
    (h : jswitchPair table st s j j' tt tt' = .ok v) (x : Dict Int String) :
    x ∈ v ↔ ∃ p p' S S', SwitchesAt td table j s p S ∧ SwitchesAt td table j' s p' S' ∧
      (∃ z, z ∈ S ∧ z ∈ S') ∧ x = [(j, p), (j', p')] := by
  simp only [specialStations, List.mem_cons, List.not_mem_nil, or_false, not_or] at hs
  obtain ⟨hs1, hs2, hs3⟩ := hs
  obtain ⟨info, hm⟩ := ht.mem
  obtain ⟨info', hm'⟩ := ht'.mem
  obtain ⟨r, hr, hrs⟩ := hc
  have hrs := (htag _ hm r hr s).2 hrs
  obtain ⟨r', hr', hrs'⟩ := hc'
  have hrs' := (htag _ hm' r' hr' s).2 hrs'
  unfold jswitchPair at h
  rw [stationBlocks_eq hst (htag _ hm) (hw.once _ hm) hr hrs,
    stationBlocks_eq hst (htag _ hm') (hw.once _ hm') hr' hrs'] at h
  simp only at h
  obtain ⟨b1, hb1, h⟩ := bind_ok h
  cases hb1
  obtain ⟨b2, hb2, h⟩ := bind_ok h
  cases hb2
  obtain ⟨i, hi, h⟩ := bind_ok h
  obtain ⟨o, ho, h⟩ := bind_ok h
  obtain ⟨i', hi', h⟩ := bind_ok h
  obtain ⟨o', ho', h⟩ := bind_ok h
  rw [if_pos (by simp [nonRepeatingSingle, hs2, hs3])] at h
  cases h
  have spec : ∀ {t : Int} {T : List Row} (hT : TableOf td t T) {ri : Row} (hri : ri ∈ T)
      (hris : ri.station = some s) {I O : List Int}
      (hI : zIn table s (trainImportantStations T) [ri.path] (T.map (·.path)) = .ok I)
      (hO : zOut table s (trainImportantStations T) [ri.path] (T.map (·.path)) = .ok O)
      (p : String) (S : List Int),
      SwitchesAt td table t s p S ↔ (p = "in" ∧ S = I) ∨ (p = "out" ∧ S = O) := by
    intro t T hT ri hri hris I O hI hO p S
    obtain ⟨_, hmT⟩ := hT.mem
    have e1 := zIn_spec hf hsame (hw.once _ hmT) (hw.blocks _ hmT) hri hris hI
    have e2 := zOut_spec hf hsame (hw.once _ hmT) (hw.blocks _ hmT) hri hris hO
    constructor
    · rintro ⟨T', hT', ⟨rfl, h⟩ | ⟨rfl, h⟩⟩
      · cases hT.unique hT'
        exact .inl ⟨rfl, (e1 S).1 h⟩
      · cases hT.unique hT'
        exact .inr ⟨rfl, (e2 S).1 h⟩
    · rintro (⟨rfl, h⟩ | ⟨rfl, h⟩)
      · exact ⟨T, hT, .inl ⟨rfl, (e1 S).2 h⟩⟩
      · exact ⟨T, hT, .inr ⟨rfl, (e2 S).2 h⟩⟩
  rw [mem_makeJswitch hs1]
  simp only [spec ht hr hrs hi ho, spec ht' hr' hrs' hi' ho']

theorem jswitch_station {td : Trains} {st : Stations} {table : List PathRow}
    (hks : (Dict.keys st).Nodup) {imp : Option (List String)}
    {d : Dict String (List (Dict Int String))} (h : jswitch td st table imp = .ok d) (s : String) :
    (s ∉ chosen st imp → Dict.get? d s = none) ∧
    (s ∈ chosen st imp → ∃ bs v, (s, bs) ∈ st ∧ Dict.get? d s = some v ∧
      collect (pairs (trainsAt td false bs)) (fun q => do
        let a ← Dict.at! td q.1
        let b ← Dict.at! td q.2
        jswitchPair table st s q.1 q.2 a.2 b.2) = .ok v) := by
  unfold jswitch at h
  simp only at h
  rw [important_fst] at h
  have e : (importantTrainsAndStations td st imp false).2 =
    getTrainsAtStation td st false := by cases imp <;> rfl
  rw [e] at h
  obtain ⟨h1, h2⟩ := station_loop (g := fun s => do
    let js ← Dict.at! (getTrainsAtStation td st false) s
    collect (pairs js) (fun q => do
      let a ← Dict.at! td q.1
      let b ← Dict.at! td q.2
      jswitchPair table st s q.1 q.2 a.2 b.2)) (fun d s _ => by
      cases Dict.at! (getTrainsAtStation td st false) s with
      | error e => rfl
      | ok js => rfl) h
  refine ⟨h1 s, fun hs => ?_⟩
  obtain ⟨v, hv, hg⟩ := h2 s hs
  obtain ⟨js, hjs, hv⟩ := bind_ok hv
  have hkey : s ∈ Dict.keys st := by
    have : Dict.get? (getTrainsAtStation td st false) s = some js := Dict.at!_ok.1 hjs
    unfold getTrainsAtStation at this
    rw [get?_map_snd st (fun bs => (td.filter fun t => isAtStation false t.2.2 bs).map Prod.fst)]
      at this
    rw [← Dict.get?_isSome]
    cases hg : Dict.get? st s with
    | none => rw [hg] at this; cases this
    | some x => rfl
  obtain ⟨⟨s0, bs⟩, hm, rfl⟩ := List.mem_map.1 hkey
  rw [Dict.at!_ok, get?_trainsAt hks hm] at hjs
  cases hjs
  exact ⟨bs, v, hm, hg, hv⟩

/-- C32, full statement for a station: two trains are listed, in one order or the other, with their
places exactly if they use a common switch there, and nothing else is listed. -/
def C32_statement (td : Trains) (table : List PathRow) (s : String) (v : List (Dict Int String)) :
    Prop :=
  (∀ x ∈ v, ∃ j p j' p', j ≠ j' ∧ x = [(j, p), (j', p')]) ∧
  (∀ j p j' p', j ≠ j' → (([(j, p), (j', p')] ∈ v ∨ [(j', p'), (j, p)] ∈ v) ↔
    ∃ S S', SwitchesAt td table j s p S ∧ SwitchesAt td table j' s p' S' ∧ ∃ z, z ∈ S ∧ z ∈ S'))

theorem switchesAt_calls {td : Trains} {st : Stations} (htag : Tagged st td)
    {table : List PathRow} {t : Int} {s p : String} {S : List Int}
    (h : SwitchesAt td table t s p S) : ∃ tt, TableOf td t tt ∧ CallsAt st tt s := by
  obtain ⟨tt, ht, h⟩ := h
  obtain ⟨info, hm⟩ := ht.mem
  have : ∃ r ∈ tt, r.station = some s := by
    rcases h with ⟨_, pre, r, post, rfl, hs, _⟩ | ⟨_, pre, r, post, rfl, hs, _⟩
    · exact ⟨r, by simp, hs⟩
    · exact ⟨r, by simp, hs⟩
  obtain ⟨r, hr, hs⟩ := this
  exact ⟨tt, ht, r, hr, (htag _ hm r hr s).1 hs⟩

/-- C32 for tables in which no whole number is stored as a `float`, and rows for the same blocks
have the same switches. Missing: tables with such floats, for which it is false. -/
theorem C32_switch_partial (td : Trains) (st : Stations) (table : List PathRow)
    (hst : WfStations st) (htag : Tagged st td) (hw : WfTrains td) (hf : NoWholeFloat table)
    (hsame : SameCells table) (imp : Option (List String))
    (d : Dict String (List (Dict Int String))) (h : jswitch td st table imp = .ok d) (s : String)
    (hs : s ∈ chosen st imp) (hsp : s ∉ specialStations) :
    ∃ v, Dict.get? d s = some v ∧ C32_statement td table s v := by
  obtain ⟨bs, v, hm, hg, hv⟩ := (jswitch_station hst.1.1 h s).2 hs
  refine ⟨v, hg, ?_⟩
  have hiff : ∀ x, x ∈ v ↔ ∃ j j', (j, j') ∈ pairs (trainsAt td false bs) ∧ ∃ p p' S S',
      SwitchesAt td table j s p S ∧ SwitchesAt td table j' s p' S' ∧ (∃ z, z ∈ S ∧ z ∈ S') ∧
      x = [(j, p), (j', p')] := by
    intro x
    have hone : ∀ q ∈ pairs (trainsAt td false bs), ∀ a, (do
        let a ← Dict.at! td q.1
        let b ← Dict.at! td q.2
        jswitchPair table st s q.1 q.2 a.2 b.2 : Py (List (Dict Int String))) = .ok a →
        (x ∈ a ↔ ∃ p p' S S', SwitchesAt td table q.1 s p S ∧ SwitchesAt td table q.2 s p' S' ∧
          (∃ z, z ∈ S ∧ z ∈ S') ∧ x = [(q.1, p), (q.2, p')]) := by
      rintro ⟨j, j'⟩ hq a ha
      obtain ⟨hj, hj'⟩ := mem_pairs hq
      obtain ⟨tt, ht, hc⟩ := (mem_trainsAt hw.keys).1 hj
      obtain ⟨tt', ht', hc'⟩ := (mem_trainsAt hw.keys).1 hj'
      rw [isAtStation_false] at hc hc'
      have hc := (calls_iff hst.1.1 hm tt).2 hc
      have hc' := (calls_iff hst.1.1 hm tt').2 hc'
      obtain ⟨i1, g1⟩ := ht
      obtain ⟨i2, g2⟩ := ht'
      rw [show Dict.at! td j = .ok (i1, tt) from Dict.at!_ok.2 g1,
        show Dict.at! td j' = .ok (i2, tt') from Dict.at!_ok.2 g2] at ha
      exact jswitchPair_spec hst htag hw hf hsame hsp ⟨i1, g1⟩ ⟨i2, g2⟩ hc hc' ha x
    rw [mem_collect hv]
    constructor
    · rintro ⟨⟨j, j'⟩, hq, a, ha, hx⟩
      exact ⟨j, j', hq, (hone _ hq a ha).1 hx⟩
    · rintro ⟨j, j', hq, hx⟩
      obtain ⟨a, ha, _⟩ := (collect_ok hv).1 _ hq
      exact ⟨(j, j'), hq, a, ha, (hone _ hq a ha).2 hx⟩
  constructor
  · intro x hx
    obtain ⟨j, j', hq, p, p', _, _, _, _, _, rfl⟩ := (hiff x).1 hx
    exact ⟨j, p, j', p', pairs_ne (trainsAt_nodup hw.keys false bs) hq, rfl⟩
  · intro j p j' p' hne
    constructor
    · rintro (hx | hx)
      · obtain ⟨j1, j2, _, p1, p2, S, S', h1, h2, h3, e⟩ := (hiff _).1 hx
        simp only [List.cons.injEq, Prod.mk.injEq, and_true] at e
        obtain ⟨⟨rfl, rfl⟩, rfl, rfl⟩ := e
        exact ⟨S, S', h1, h2, h3⟩
      · obtain ⟨j1, j2, _, p1, p2, S, S', h1, h2, ⟨z, hz, hz'⟩, e⟩ := (hiff _).1 hx
        simp only [List.cons.injEq, Prod.mk.injEq, and_true] at e
        obtain ⟨⟨rfl, rfl⟩, rfl, rfl⟩ := e
        exact ⟨S', S, h2, h1, z, hz', hz⟩
    · rintro ⟨S, S', h1, h2, z, hz, hz'⟩
      have mem : ∀ {t : Int} {p : String} {S : List Int}, SwitchesAt td table t s p S →
          t ∈ trainsAt td false bs := by
        intro t p S hS
        obtain ⟨tt, ht, hc⟩ := switchesAt_calls htag hS
        exact (mem_trainsAt hw.keys).2 ⟨tt, ht, isAtStation_false.2 ((calls_iff hst.1.1 hm tt).1 hc)⟩
      rcases pairs_of_mem (mem h1) (mem h2) hne with hq | hq
      · exact .inl ((hiff _).2 ⟨j, j', hq, p, p', S, S', h1, h2, ⟨z, hz, hz'⟩, rfl⟩)
      · exact .inr ((hiff _).2 ⟨j', j, hq, p', p, S', S, h2, h1, ⟨z, hz', hz⟩, rfl⟩)

/-- At the stations `KO(IC)` and `KO(KS)` nothing is listed. -/
theorem C32_special (td : Trains) (st : Stations) (table : List PathRow) (hk : (Dict.keys st).Nodup)
    (imp : Option (List String)) (d : Dict String (List (Dict Int String)))
    (h : jswitch td st table imp = .ok d) (s : String) (hs : s ∈ chosen st imp)
    (hsp : s = "KO(IC)" ∨ s = "KO(KS)") : Dict.get? d s = some [] := by
  obtain ⟨bs, v, hm, hg, hv⟩ := (jswitch_station hk h s).2 hs
  rw [hg]
  congr 1
  refine List.eq_nil_iff_forall_not_mem.2 fun x hx => ?_
  obtain ⟨q, hq, a, ha, hin⟩ := (mem_collect hv x).1 hx
  obtain ⟨e1, _, ha⟩ := bind_ok ha
  obtain ⟨e2, _, ha⟩ := bind_ok ha
  unfold jswitchPair at ha
  obtain ⟨_, _, ha⟩ := bind_ok ha
  obtain ⟨_, _, ha⟩ := bind_ok ha
  obtain ⟨_, _, ha⟩ := bind_ok ha
  obtain ⟨_, _, ha⟩ := bind_ok ha
  obtain ⟨_, _, ha⟩ := bind_ok ha
  obtain ⟨_, _, ha⟩ := bind_ok ha
  rw [if_neg (by rcases hsp with rfl | rfl <;> simp [nonRepeatingSingle])] at ha
  cases ha; cases hin

/-- some train goes straight from block `a` to block `b`, one of which is in a station -/
def GoesFrom (td : Trains) (a b : String) : Prop :=
  ∃ t rows pre r0 r1 post, TableOf td t rows ∧ rows = pre ++ r0 :: r1 :: post ∧
    r0.path = a ∧ r1.path = b ∧ (r0.station ≠ none ∨ r1.station ≠ none)

/-- C32: the conflicts are found if all stations asked for are known and the cells of the rows that
are used can be read. -/
theorem C32_found (td : Trains) (st : Stations) (table : List PathRow)
    (hst : WfStations st) (htag : Tagged st td) (hw : WfTrains td)
    (hread : ∀ a b, GoesFrom td a b → ∀ row ∈ table, Joins row a b → Readable row.switches)
    (imp : Option (List String))
    (himp : ∀ s ∈ chosen st imp, s ∈ Dict.keys st) : ∃ d, jswitch td st table imp = .ok d := by
  unfold jswitch
  simp only
  rw [important_fst]
  have e : (importantTrainsAndStations td st imp false).2 =
    getTrainsAtStation td st false := by cases imp <;> rfl
  rw [e]
  refine station_loop_ok (g := fun s => do
    let js ← Dict.at! (getTrainsAtStation td st false) s
    collect (pairs js) (fun q => do
      let a ← Dict.at! td q.1
      let b ← Dict.at! td q.2
      jswitchPair table st s q.1 q.2 a.2 b.2)) (fun d s _ => by
      cases Dict.at! (getTrainsAtStation td st false) s with
      | error e => rfl
      | ok js => rfl) ?_ _
  intro s hs
  obtain ⟨⟨s0, bs⟩, hm, rfl⟩ := List.mem_map.1 (himp s hs)
  simp only
  rw [show Dict.at! (getTrainsAtStation td st false) s0 = .ok (trainsAt td false bs) from
    Dict.at!_ok.2 (get?_trainsAt hst.1.1 hm)]
  have found : ∀ t ∈ trainsAt td false bs, ∃ e r i o, Dict.get? td t = some e ∧
      blocksList4station e.2 s0 st = .ok [r] ∧
      zIn table s0 (trainImportantStations e.2) [r] (e.2.map (·.path)) = .ok i ∧
      zOut table s0 (trainImportantStations e.2) [r] (e.2.map (·.path)) = .ok o := by
    intro t ht
    obtain ⟨tt, ⟨info, hg⟩, hc⟩ := (mem_trainsAt hw.keys).1 ht
    rw [isAtStation_false] at hc
    obtain ⟨r, hr, hb⟩ := hc
    have hmem := Dict.mem_of_get? hg
    have hrs : r.station = some s0 := (htag _ hmem r hr s0).2 ((belongs_iff hst.1.1 hm).2 hb)
    obtain ⟨pre, post, e⟩ := List.append_of_mem hr
    have e : tt = pre ++ r :: post := e
    have hbo : BlocksOnce tt := hw.blocks _ hmem
    have hoo : OnceEach tt := hw.once _ hmem
    have hi : ∃ i, zIn table s0 (trainImportantStations tt) [r.path] (tt.map (·.path)) = .ok i := by
      rw [zIn_eq e hoo hbo hrs]
      split
      · exact ⟨_, rfl⟩
      · rcases List.eq_nil_or_concat pre with rfl | ⟨pre', r0, rfl⟩
        · exact ⟨_, rfl⟩
        · rw [List.concat_eq_append] at e ⊢
          rw [List.getLast?_concat]
          refine switchesBetween_found ?_ (hread _ _ ⟨t, tt, pre', r0, r, post, ⟨info, hg⟩,
            by simp [e], rfl, rfl, .inr (by rw [hrs]; simp)⟩)
          rw [e] at hbo
          refine blocks_ne (a := pre') (b := post) ?_
          simpa using hbo
    have ho : ∃ o, zOut table s0 (trainImportantStations tt) [r.path] (tt.map (·.path)) = .ok o := by
      rw [zOut_eq e hoo hbo hrs]
      split
      · exact ⟨_, rfl⟩
      · cases post with
        | nil => exact ⟨_, rfl⟩
        | cons r1 post' =>
          refine switchesBetween_found ?_ (hread _ _ ⟨t, tt, pre, r, r1, post', ⟨info, hg⟩, e,
            rfl, rfl, .inl (by rw [hrs]; simp)⟩)
          rw [e] at hbo
          exact blocks_ne hbo
    obtain ⟨i, hi⟩ := hi
    obtain ⟨o, ho⟩ := ho
    exact ⟨(info, tt), r.path, i, o, hg, stationBlocks_eq hst (htag _ hmem) hoo hr hrs, hi, ho⟩
  refine collect_succeeds ?_
  rintro ⟨j, j'⟩ hq
  obtain ⟨hj, hj'⟩ := mem_pairs hq
  obtain ⟨e1, r1, i1, o1, g1, b1, hi1, ho1⟩ := found j hj
  obtain ⟨e2, r2, i2, o2, g2, b2, hi2, ho2⟩ := found j' hj'
  simp only
  rw [show Dict.at! td j = .ok e1 from Dict.at!_ok.2 g1,
    show Dict.at! td j' = .ok e2 from Dict.at!_ok.2 g2]
  simp only [bind, Except.bind, jswitchPair, b1, b2, hi1, ho1, hi2, ho2]
  split
  · exact ⟨_, rfl⟩
  · exact ⟨_, rfl⟩

/-! ## Examples -/

/-- the trains meet in `B`: 1 comes from `A` over switch 3, 2 from `C` over switches 3 and 5 -/
def switchTrains : Trains :=
  [(1, ([], [{ path := "a", station := some "A" }, { path := "l1" },
     { path := "b", station := some "B" }])),
   (2, ([], [{ path := "c", station := some "C" }, { path := "l2" },
     { path := "b2", station := some "B" }])),
   (3, ([], [{ path := "b2", station := some "B" }, { path := "l1" },
     { path := "a", station := some "A" }]))]
/-- the table of switches -/
def switchTable : List PathRow :=
  [{ prev := "l1", next := "b", switches := .textInt 3 },
   { prev := "b2", next := "l2", switches := .float 3 5 },
   { prev := "b2", next := "l1", switches := .textTuple [5, 7] }]

theorem sameCells_of_check {table : List PathRow}
    (h : ∀ row ∈ table, ∀ row' ∈ table, (row.prev = row'.prev ∧ row.next = row'.next) ∨
      (row.prev = row'.next ∧ row.next = row'.prev) → row.switches = row'.switches) :
    SameCells table := by
  intro row hr row' hr' a b hj hj'
  refine h row hr row' hr' ?_
  rcases hj with ⟨rfl, rfl⟩ | ⟨rfl, rfl⟩ <;> rcases hj' with ⟨h1, h2⟩ | ⟨h1, h2⟩
  · exact .inl ⟨h1.symm, h2.symm⟩
  · exact .inr ⟨h2.symm, h1.symm⟩
  · exact .inr ⟨h2.symm, h1.symm⟩
  · exact .inl ⟨h1.symm, h2.symm⟩

set_option synthInstance.maxSize 1000 in
/-- the hypotheses of `C32_switch_partial` and what is computed -/
example : WfStations threeStations ∧ Tagged threeStations switchTrains ∧ WfTrains switchTrains ∧
    NoWholeFloat switchTable ∧ SameCells switchTable ∧ "B" ∉ specialStations ∧
    jswitch switchTrains threeStations switchTable none =
      .ok [("A", []), ("B", [[(1, "in"), (2, "in")], [(2, "in"), (3, "out")]]), ("C", [])] := by
  refine ⟨threeStations_wf, tagged_of_check threeStations_wf.1 (by decide +kernel),
    ⟨by decide +kernel, by unfold OnceEach; decide +kernel, by unfold BlocksOnce; decide +kernel⟩,
    ?_, sameCells_of_check (by decide +kernel), by decide +kernel, by decide +kernel⟩
  intro row hr a
  simp only [switchTable, List.mem_cons, List.not_mem_nil, or_false] at hr
  rcases hr with rfl | rfl | rfl <;> simp

set_option synthInstance.maxSize 1000 in
/-- C32 is false of the code for whole numbers stored as `float`: switches 3 and 4, read as 3.0 and
4.0, become the sets {3, 0} and {4, 0}, so a conflict is listed. -/
theorem C32_false : ∃ (td : Trains) (table : List PathRow) (v : List (Dict Int String)),
    Tagged threeStations td ∧ WfTrains td ∧ SameCells table ∧
    jswitch td threeStations table none = .ok [("A", []), ("B", v), ("C", [])] ∧
    ¬ C32_statement td table "B" v := by
  refine ⟨[(1, ([], [{ path := "a", station := some "A" }, { path := "l1" },
     { path := "b", station := some "B" }])),
   (2, ([], [{ path := "c", station := some "C" }, { path := "l2" },
     { path := "b2", station := some "B" }]))],
   [{ prev := "l1", next := "b", switches := .float 3 0 },
    { prev := "b2", next := "l2", switches := .float 4 0 }], [[(1, "in"), (2, "in")]],
   tagged_of_check threeStations_wf.1 (by decide +kernel),
    ⟨by decide +kernel, by unfold OnceEach; decide +kernel, by unfold BlocksOnce; decide +kernel⟩,
    sameCells_of_check (by decide +kernel), by decide +kernel, ?_⟩
  rintro ⟨_, h⟩
  obtain ⟨S, S', ⟨tt, ⟨i, ht⟩, h1⟩, ⟨tt', ⟨i', ht'⟩, h2⟩, z, hz, hz'⟩ :=
    (h 1 "in" 2 "in" (by decide)).1 (.inl (by simp))
  simp only [Dict.get?, if_true, Option.some.injEq, Prod.mk.injEq] at ht
  obtain ⟨_, rfl⟩ := ht
  simp [Dict.get?] at ht'
  obtain ⟨_, rfl⟩ := ht'
  rcases h1 with ⟨_, pre, r, post, e, hs, h1⟩ | ⟨h1, _⟩
  swap
  · simp at h1
  rcases h2 with ⟨_, pre', r', post', e', hs', h2⟩ | ⟨h2, _⟩
  swap
  · simp at h2
  obtain ⟨rfl, rfl, rfl⟩ := once_split (s := "B") (by unfold OnceEach; decide +kernel) e
    (pre' := [{ path := "a", station := some "A" }, { path := "l1" }])
    (r' := { path := "b", station := some "B" }) (post' := []) rfl hs rfl
  obtain ⟨rfl, rfl, rfl⟩ := once_split (s := "B") (by unfold OnceEach; decide +kernel) e'
    (pre' := [{ path := "c", station := some "C" }, { path := "l2" }])
    (r' := { path := "b2", station := some "B" }) (post' := []) rfl hs' rfl
  have hS : S = [3] := by
    rcases h1 with ⟨h1, _⟩ | ⟨_, p, r0, hp, hsw⟩
    · exact absurd (h1 _ List.mem_cons_self) (by simp)
    · have : r0 = { path := "l1" } := by
        have := congrArg List.getLast? hp
        simp at this
        exact this.symm
      subst this
      rcases hsw with ⟨hn, _⟩ | ⟨row, hrow, hj, hc⟩
      · exact absurd (.inl ⟨rfl, rfl⟩) (hn _ List.mem_cons_self)
      · simp only [List.mem_cons, List.not_mem_nil, or_false] at hrow
        rcases hrow with rfl | rfl
        · exact hc
        · simp [Joins] at hj
  have hS' : S' = [4] := by
    rcases h2 with ⟨h1, _⟩ | ⟨_, p, r0, hp, hsw⟩
    · exact absurd (h1 _ List.mem_cons_self) (by simp)
    · have : r0 = { path := "l2" } := by
        have := congrArg List.getLast? hp
        simp at this
        exact this.symm
      subst this
      rcases hsw with ⟨hn, _⟩ | ⟨row, hrow, hj, hc⟩
      · exact absurd (.inr ⟨rfl, rfl⟩) (hn _ (List.mem_cons_of_mem _ List.mem_cons_self))
      · simp only [List.mem_cons, List.not_mem_nil, or_false] at hrow
        rcases hrow with rfl | rfl
        · simp [Joins] at hj
        · exact hc
  subst hS; subst hS'
  simp at hz hz'
  omega

end Verif
