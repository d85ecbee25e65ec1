import Verif.Model.Table
import Verif.Proofs.Loops

/-!
# C42: reading the sheet recovers the trains
-/

namespace Verif

/-- A section of the sheet: a line `####`, the type of the train, its number, its name, the line
`from …` or `departs …`, the rows of its timetable, the line `to …` or `terminates …`. -/
structure Section where
  hash : RawRow
  type : RawRow
  number : RawRow
  name : RawRow
  start : RawRow
  rows : List RawRow
  stop : RawRow
  deriving DecidableEq

/-- the lines of the section in the sheet -/
def Section.lines (s : Section) : List RawRow :=
  [s.hash, s.type, s.number, s.name, s.start] ++ s.rows ++ [s.stop]

/-- the train number -/
def Section.train (s : Section) : Int := intOf s.number.path

/-- `[type, name, from, to]` -/
def Section.info (s : Section) : List String := [s.type.path, s.name.path, s.start.path, s.stop.path]

/-- a line that is neither a number nor the beginning of a timetable -/
def PlainLine (r : RawRow) : Prop := isNumeric r.path = false ∧ startsSection r.path = false

/-- Well-formed section: only the third line is a number, only the fifth one begins with `from` or
`depa`, and the first later one that begins with `to` or `te` is the last one. -/
structure Section.Wf (s : Section) : Prop where
  hash : PlainLine s.hash
  type : PlainLine s.type
  number : isNumeric s.number.path = true
  name : PlainLine s.name
  start : startsSection s.start.path = true
  rows : ∀ r ∈ s.rows, PlainLine r ∧ endsSection r.path = false
  stop : endsSection s.stop.path = true

/-! ## Texts -/

theorem take_digit {l : List Char} {k : Nat} {t : List Char} (hall : ∀ c ∈ l, c.isDigit = true)
    (h : l.take k = t) : ∀ c ∈ t, c.isDigit = true := by
  intro c hc
  rw [← h] at hc
  exact hall c (List.mem_of_mem_take hc)

theorem start_not_numeric {s : String} (h : startsSection s = true) : isNumeric s = false := by
  by_contra hc
  rw [Bool.not_eq_false] at hc
  unfold isNumeric at hc
  simp only [Bool.and_eq_true, List.all_eq_true] at hc
  unfold startsSection at h
  rw [decide_eq_true_eq] at h
  rcases h with h | h
  · have h1 := congrArg String.toList h
    rw [String.toList_ofList] at h1
    have := take_digit hc.2 h1 'f' (by decide)
    revert this; decide
  · have h1 := congrArg String.toList h
    rw [String.toList_ofList] at h1
    have := take_digit hc.2 h1 'd' (by decide)
    revert this; decide

theorem end_plainLine {r : RawRow} (h : endsSection r.path = true) : PlainLine r := by
  unfold endsSection at h
  rw [decide_eq_true_eq] at h
  have h2 : r.path.toList.take 2 = ['t', 'o'] ∨ r.path.toList.take 2 = ['t', 'e'] := by
    rcases h with h | h
    · left; simpa using congrArg String.toList h
    · right; simpa using congrArg String.toList h
  constructor
  · by_contra hc
    rw [Bool.not_eq_false] at hc
    unfold isNumeric at hc
    simp only [Bool.and_eq_true, List.all_eq_true] at hc
    rcases h2 with h2 | h2
    all_goals
      have := take_digit hc.2 h2 't' (by decide)
      revert this; decide
  · unfold startsSection
    rw [decide_eq_false_iff_not]
    have h3 : ∀ t : List Char, r.path.toList.take 4 = t → t.take 2 = ['t', 'o'] ∨
        t.take 2 = ['t', 'e'] := by
      rintro t rfl
      rw [List.take_take]; exact h2
    rintro (h4 | h4)
    all_goals
      have h5 := congrArg String.toList h4
      rw [String.toList_ofList] at h5
      have := h3 _ h5
      revert this; decide

theorem number_not_start {s : String} (h : isNumeric s = true) : startsSection s = false := by
  by_contra hc
  rw [Bool.not_eq_false] at hc
  rw [start_not_numeric hc] at h
  cases h

/-! ## Steps -/

theorem label_nat {α : Type} {xs : List α} {i : Nat} {x : α} (h : xs[i]? = some x) :
    label xs (i : Int) = .ok x := by
  unfold label
  rw [if_neg (by omega)]
  simp [h]

theorem label_col {data : List RawRow} {i : Nat} {r : RawRow} (h : data[i]? = some r) :
    label (data.map (·.path)) (i : Int) = .ok r.path :=
  label_nat (by rw [List.getElem?_map, h]; rfl)

theorem readStep_plain {data : List RawRow} {i : Nat} {r : RawRow} (h : data[i]? = some r)
    (hp : PlainLine r) (st : ReadState) : readStep data st i = .ok st := by
  unfold readStep
  simp only [label_col h, bind, Except.bind]
  simp [hp.1, hp.2]

theorem loop_plain {data : List RawRow} {m : List RawRow} {k : Nat}
    (h : ∀ j (r : RawRow), m[j]? = some r → data[k + j]? = some r) (hp : ∀ r ∈ m, PlainLine r)
    (st : ReadState) :
    loop (List.range' k m.length) (readStep data) st = .ok st := by
  induction m generalizing k with
  | nil => rfl
  | cons r m ih =>
    rw [List.length_cons, List.range'_succ]
    simp only [loop]
    rw [readStep_plain (i := k) (h 0 r rfl) (hp r List.mem_cons_self)]
    exact ih (k := k + 1) (fun j r hj => by
      have := h (j + 1) r (by simpa using hj)
      rwa [show k + 1 + j = k + (j + 1) by omega]) (fun r hr => hp r (List.mem_cons_of_mem _ hr))

theorem sectionEnd_eq {pre mid post : List String} {x : String}
    (hm : ∀ y ∈ mid, endsSection y = false) (hx : endsSection x = true) :
    sectionEnd (pre ++ mid ++ x :: post) pre.length = .ok (pre.length + mid.length) := by
  induction mid generalizing pre with
  | nil =>
    unfold sectionEnd
    rw [dif_pos (by simp)]
    simp [hx]
  | cons y mid ih =>
    unfold sectionEnd
    rw [dif_pos (by simp)]
    have hy : (pre ++ y :: mid ++ x :: post)[pre.length]'(by simp) = y := by simp
    rw [hy, hm y List.mem_cons_self]
    have := ih (pre := pre ++ [y]) (fun z hz => hm z (List.mem_cons_of_mem _ hz))
    simp only [List.append_assoc, List.cons_append, List.nil_append, List.length_append,
      List.length_cons, List.length_nil] at this ⊢
    rw [if_neg (by simp)]
    rw [show pre.length + (mid.length + 1) = pre.length + (0 + 1) + mid.length by omega]
    exact this

/-- one section is read as one train -/
theorem read_section (pre post : List RawRow) (s : Section) (hs : s.Wf) (st : ReadState) :
    loop (List.range' pre.length s.lines.length) (readStep (pre ++ s.lines ++ post)) st =
      .ok ⟨some s.train, some s.info, Dict.set st.dict s.train (s.info, s.rows)⟩ := by
  set data := pre ++ s.lines ++ post with hdata
  have hget : ∀ j (r : RawRow), s.lines[j]? = some r → data[pre.length + j]? = some r := by
    intro j r hj
    have hlt := (List.getElem?_eq_some_iff.1 hj).1
    rw [hdata, List.append_assoc, List.getElem?_append_right (by omega),
      Nat.add_sub_cancel_left, List.getElem?_append_left hlt]
    exact hj
  have g0 := hget 0 s.hash rfl
  have g1 := hget 1 s.type rfl
  have g2 := hget 2 s.number rfl
  have g3 := hget 3 s.name rfl
  have g4 := hget 4 s.start rfl
  have hlines : s.lines.length = (s.rows ++ [s.stop]).length + 1 + 1 + 1 + 1 + 1 := by
    simp [Section.lines]
  rw [hlines, List.range'_succ, List.range'_succ, List.range'_succ, List.range'_succ,
    List.range'_succ]
  simp only [loop]
  rw [readStep_plain (by simpa using g0) hs.hash]
  simp only
  rw [readStep_plain g1 hs.type]
  simp only
  have e2 : readStep data st (pre.length + 1 + 1) =
      .ok { st with train := some s.train
                    info := some [s.type.path, s.name.path, s.start.path] } := by
    unfold readStep
    simp only [label_col g2, bind, Except.bind, hs.number, if_true]
    have a1 : label (data.map (·.path)) (((pre.length + 1 + 1 : Nat) : Int) - 1) = .ok s.type.path := by
      rw [show ((pre.length + 1 + 1 : Nat) : Int) - 1 = ((pre.length + 1 : Nat) : Int) by
        push_cast; omega]
      exact label_col g1
    have a2 : label (data.map (·.path)) (((pre.length + 1 + 1 : Nat) : Int) + 1) = .ok s.name.path := by
      rw [show ((pre.length + 1 + 1 : Nat) : Int) + 1 = ((pre.length + 3 : Nat) : Int) by
        push_cast; omega]
      exact label_col g3
    have a3 : label (data.map (·.path)) (((pre.length + 1 + 1 : Nat) : Int) + 2) =
        .ok s.start.path := by
      rw [show ((pre.length + 1 + 1 : Nat) : Int) + 2 = ((pre.length + 4 : Nat) : Int) by
        push_cast; omega]
      exact label_col g4
    simp only [a1, a2, a3]
    rw [number_not_start hs.number]
    rfl
  rw [e2]
  simp only
  rw [readStep_plain g3 hs.name]
  simp only
  have e4 : readStep data { st with train := some s.train
                                    info := some [s.type.path, s.name.path, s.start.path] }
      (pre.length + 1 + 1 + 1 + 1) =
      .ok ⟨some s.train, some s.info, Dict.set st.dict s.train (s.info, s.rows)⟩ := by
    have hcol : data.map (·.path) =
        ((pre ++ [s.hash, s.type, s.number, s.name, s.start]).map (·.path)) ++
          s.rows.map (·.path) ++ s.stop.path :: post.map (·.path) := by
      rw [hdata]; simp [Section.lines]
    have hk : pre.length + 1 + 1 + 1 + 1 + 1 =
        ((pre ++ [s.hash, s.type, s.number, s.name, s.start]).map (·.path)).length := by simp
    have hend : sectionEnd (data.map (·.path)) (pre.length + 1 + 1 + 1 + 1 + 1) =
        .ok (pre.length + 5 + s.rows.length) := by
      rw [hk, hcol, sectionEnd_eq ?_ hs.stop, ← hk]
      · simp
      · intro y hy
        obtain ⟨r, hr, rfl⟩ := List.mem_map.1 hy
        exact (hs.rows r hr).2
    have hstop : label (data.map (·.path)) ((pre.length + 5 + s.rows.length : Nat) : Int) =
        .ok s.stop.path := by
      refine label_col (hget (5 + s.rows.length) s.stop ?_ |> fun h => by rwa [Nat.add_assoc])
      have : s.lines = ([s.hash, s.type, s.number, s.name, s.start] ++ s.rows) ++ [s.stop] := rfl
      have hl : 5 + s.rows.length =
          ([s.hash, s.type, s.number, s.name, s.start] ++ s.rows).length := by simp; omega
      rw [this, hl, List.getElem?_append_right (le_refl _), Nat.sub_self]
      rfl
    have hrows : (data.take (pre.length + 5 + s.rows.length)).drop (pre.length + 1 + 1 + 1 + 1 + 1)
        = s.rows := by
      have hd : data = (pre ++ [s.hash, s.type, s.number, s.name, s.start] ++ s.rows) ++
          (s.stop :: post) := by rw [hdata]; simp [Section.lines]
      rw [hd, List.take_left' (by simp; omega), List.drop_left' (by simp)]
    unfold readStep
    simp only [label_col g4, bind, Except.bind, start_not_numeric hs.start, hs.start, if_true,
      Bool.false_eq_true, if_false, hend, hstop, hrows]
    rfl
  rw [e4]
  simp only
  refine loop_plain (m := s.rows ++ [s.stop]) ?_ ?_ _
  · intro j r hj
    rw [show pre.length + 1 + 1 + 1 + 1 + 1 + j = pre.length + (j + 5) by omega]
    apply hget
    have : s.lines = [s.hash, s.type, s.number, s.name, s.start] ++ (s.rows ++ [s.stop]) := by
      simp [Section.lines]
    rw [this, List.getElem?_append_right (by simp)]
    simpa using hj
  · intro r hr
    rcases List.mem_append.1 hr with hr | hr
    · exact (hs.rows r hr).1
    · rw [List.mem_singleton] at hr; subst hr; exact end_plainLine hs.stop

/-- the sheet consisting of the sections one after the other -/
def sheetOf (secs : List Section) : List RawRow := secs.flatMap Section.lines

theorem read_sections (pre : List RawRow) (secs : List Section) (h : ∀ s ∈ secs, s.Wf)
    (st : ReadState) :
    ∃ st', loop (List.range' pre.length (sheetOf secs).length)
        (readStep (pre ++ sheetOf secs)) st = .ok st' ∧
      st'.dict = secs.foldl (fun d s => Dict.set d s.train (s.info, s.rows)) st.dict := by
  induction secs generalizing pre st with
  | nil => exact ⟨st, rfl, rfl⟩
  | cons s secs ih =>
    have e : sheetOf (s :: secs) = s.lines ++ sheetOf secs := rfl
    rw [e, List.length_append, ← List.range'_append_1, loop_append]
    rw [← List.append_assoc, read_section pre (sheetOf secs) s (h s List.mem_cons_self) st]
    obtain ⟨st', h1, h2⟩ := ih (pre ++ s.lines) (fun x hx => h x (List.mem_cons_of_mem _ hx))
      ⟨some s.train, some s.info, Dict.set st.dict s.train (s.info, s.rows)⟩
    refine ⟨st', ?_, h2⟩
    rw [List.length_append] at h1
    exact h1

/-- C42 in general: sections with a number that occurred before replace the earlier train. -/
theorem C42_general (secs : List Section) (h : ∀ s ∈ secs, s.Wf) :
    timetableToTrainDict (sheetOf secs) =
      .ok (secs.foldl (fun d s => Dict.set d s.train (s.info, s.rows)) []) := by
  obtain ⟨st', h1, h2⟩ := read_sections [] secs h ⟨none, none, []⟩
  unfold timetableToTrainDict
  rw [List.nil_append, List.length_nil, ← List.range_eq_range'] at h1
  rw [h1]
  change Except.ok st'.dict = _
  rw [h2]

theorem set_new {K V : Type} [DecidableEq K] {d : Dict K V} {k : K} (h : k ∉ Dict.keys d) (v : V) :
    Dict.set d k v = d ++ [(k, v)] := by
  induction d with
  | nil => rfl
  | cons p d ih =>
    simp only [Dict.keys, List.map_cons, List.mem_cons, not_or] at h
    simp only [Dict.set]
    rw [if_neg (Ne.symm h.1), ih h.2]; rfl

theorem foldl_set_new {α K V : Type} [DecidableEq K] (f : α → K) (g : α → V) (xs : List α)
    (d : Dict K V) (h : (Dict.keys d ++ xs.map f).Nodup) :
    xs.foldl (fun d x => Dict.set d (f x) (g x)) d = d ++ xs.map fun x => (f x, g x) := by
  induction xs generalizing d with
  | nil => simp
  | cons x xs ih =>
    have hx : f x ∉ Dict.keys d := by
      intro hm
      rw [List.nodup_append] at h
      exact h.2.2 _ hm (f x) (by simp) rfl
    rw [List.foldl_cons, set_new hx, ih]
    · simp
    · simpa [Dict.keys] using h

/-- C42, full statement: the result is exactly the trains of the sections, with their information
and rows. -/
def C42_statement (secs : List Section) : Prop :=
  timetableToTrainDict (sheetOf secs) = .ok (secs.map fun s => (s.train, (s.info, s.rows)))

/-- C42 for sheets in which no train number occurs twice. Missing: sheets with a repeated number,
for which it is false. -/
theorem C42_sheet_partial (secs : List Section) (h : ∀ s ∈ secs, s.Wf)
    (hnd : (secs.map Section.train).Nodup) : C42_statement secs := by
  unfold C42_statement
  rw [C42_general secs h, foldl_set_new Section.train (fun s => (s.info, s.rows)) secs []]
  · simp
  · simpa [Dict.keys] using hnd

/-- replacing an entry -/
theorem set_there {K V : Type} [DecidableEq K] {l m : Dict K V} {k : K} (h : k ∉ Dict.keys l)
    (v v' : V) : Dict.set (l ++ (k, v) :: m) k v' = l ++ (k, v') :: m := by
  induction l with
  | nil => simp [Dict.set]
  | cons p l ih =>
    simp only [Dict.keys, List.map_cons, List.mem_cons, not_or] at h
    rw [List.cons_append, Dict.set, if_neg (Ne.symm h.1), ih h.2]; rfl

/-- C42 for a sheet with one number in two sections: it is read as the sheet without the first one
of these sections, the second one being in its place. -/
theorem C42_repeated (A B C : List Section) (s s' : Section)
    (h : ∀ x ∈ A ++ s :: B ++ s' :: C, x.Wf) (hs : s.train = s'.train)
    (hnd : ((A ++ s' :: B ++ C).map Section.train).Nodup) :
    timetableToTrainDict (sheetOf (A ++ s :: B ++ s' :: C)) =
      .ok ((A ++ s' :: B ++ C).map fun s => (s.train, (s.info, s.rows))) := by
  rw [C42_general _ h, List.foldl_append, List.foldl_cons,
    foldl_set_new Section.train (fun s => (s.info, s.rows)) (A ++ s :: B) []]
  · simp only [List.map_append, List.map_cons, List.nil_append] at hnd ⊢
    rw [hs, set_there, foldl_set_new Section.train (fun s => (s.info, s.rows)) C]
    · simpa [Dict.keys, Function.comp_def] using hnd
    · simp only [List.append_assoc, List.cons_append, List.nodup_append, List.nodup_cons] at hnd
      intro hm
      have : s'.train ∈ A.map Section.train := by
        simpa [Dict.keys, Function.comp_def] using hm
      exact hnd.2.2 _ this s'.train (by simp) rfl
  · simp only [List.map_append, List.map_cons] at hnd ⊢
    rw [hs]
    exact (List.nodup_append.1 hnd).1

/-- C42 for any sheet: each number is that of the last section with this number. -/
theorem C42_last (secs : List Section) (h : ∀ s ∈ secs, s.Wf) (pre post : List Section)
    (s : Section) (he : secs = pre ++ s :: post) (hpost : ∀ x ∈ post, x.train ≠ s.train) :
    ∃ d, timetableToTrainDict (sheetOf secs) = .ok d ∧
      Dict.get? d s.train = some (s.info, s.rows) := by
  refine ⟨_, C42_general secs h, ?_⟩
  subst he
  rw [List.foldl_append, List.foldl_cons]
  generalize hd : Dict.set (List.foldl (fun d s => Dict.set d s.train (s.info, s.rows)) [] pre)
    s.train (s.info, s.rows) = d
  have hg : Dict.get? d s.train = some (s.info, s.rows) := by
    rw [← hd, Dict.get?_set, if_pos rfl]
  clear hd h
  induction post generalizing d with
  | nil => exact hg
  | cons x post ih =>
    rw [List.foldl_cons]
    refine ih (fun y hy => hpost y (List.mem_cons_of_mem _ hy)) _ ?_
    rw [Dict.get?_set, if_neg (fun h => hpost x List.mem_cons_self h.symm)]
    exact hg

/-- a row of the sheet with only the first column filled -/
def line (t : String) : RawRow := { path := t }

/-- a section with two rows -/
def exampleSection (n : String) : Section where
  hash := line "####"
  type := line "KS - Os"
  number := line n
  name := line "S5"
  start := line "from Zwardoń"
  rows := [{ path := "Ty", speed := some "R", dep := some "15:47" }, line "KO"]
  stop := line "terminates in Katowice"

theorem exampleSection_wf (n : String) (h : isNumeric n = true) : (exampleSection n).Wf where
  hash := by
    have : isNumeric (line "####").path = false ∧ startsSection (line "####").path = false := by
      decide +kernel
    exact this
  type := by
    have : isNumeric (line "KS - Os").path = false ∧ startsSection (line "KS - Os").path = false := by
      decide +kernel
    exact this
  number := h
  name := by
    have : isNumeric (line "S5").path = false ∧ startsSection (line "S5").path = false := by
      decide +kernel
    exact this
  start := by
    have : startsSection (line "from Zwardoń").path = true := by decide +kernel
    exact this
  rows := by
    have : ∀ r ∈ [({ path := "Ty", speed := some "R", dep := some "15:47" } : RawRow), line "KO"],
        (isNumeric r.path = false ∧ startsSection r.path = false) ∧ endsSection r.path = false := by
      decide +kernel
    exact this
  stop := by
    have : endsSection (line "terminates in Katowice").path = true := by decide +kernel
    exact this

/-- C42 is false of the code for two sections with the same number: the first train is lost. -/
theorem C42_false : ¬ ∀ secs : List Section, (∀ s ∈ secs, s.Wf) → C42_statement secs := by
  intro h
  have h1 := h [exampleSection "94766", exampleSection "94766"] (by
    intro s hs
    simp only [List.mem_cons, List.not_mem_nil, or_false, or_self] at hs
    subst hs
    exact exampleSection_wf _ (by decide +kernel))
  unfold C42_statement at h1
  rw [C42_general _ (by
    intro s hs
    simp only [List.mem_cons, List.not_mem_nil, or_false, or_self] at hs
    subst hs
    exact exampleSection_wf _ (by decide +kernel))] at h1
  have := congrArg List.length (Except.ok.inj h1)
  simp [Dict.set] at this

/-- the hypotheses of `C42_sheet_partial` for a sheet of two trains -/
example : (∀ s ∈ [exampleSection "94766", exampleSection "26103"], s.Wf) ∧
    ([exampleSection "94766", exampleSection "26103"].map Section.train).Nodup ∧
    ([exampleSection "94766", exampleSection "26103"].map Section.train) = [94766, 26103] := by
  refine ⟨?_, by decide +kernel, by decide +kernel⟩
  intro s hs
  simp only [List.mem_cons, List.not_mem_nil, or_false] at hs
  rcases hs with rfl | rfl <;> exact exampleSection_wf _ (by decide +kernel)

end Verif
