import Verif.Props.ListHelpers

/-!
# C45 and C46: blocks between stations and common paths
-/

namespace Verif

/-- the train has a block of the station (column `important_station`) -/
def Serves (tt : List Row) (s : String) : Prop := ∃ r ∈ tt, r.station = some s

/-- the row belongs to none of the two stations -/
def AtNeither (s1 s2 : String) (r : Row) : Prop := r.station ≠ some s1 ∧ r.station ≠ some s2

theorem mem_stations {tt : List Row} {s : String} : s ∈ trainImportantStations tt ↔ Serves tt s := by
  simp [trainImportantStations, Serves]

theorem mask_append (s1 s2 : String) (k : Nat) (a b : List Row) :
    maskIndices s1 s2 k (a ++ b) = maskIndices s1 s2 k a ++ maskIndices s1 s2 (k + a.length) b := by
  induction a generalizing k with
  | nil => simp [maskIndices]
  | cons r a ih =>
    simp only [List.cons_append, maskIndices, ih, List.length_cons]
    rw [Nat.add_right_comm k 1, Nat.add_assoc k a.length 1]
    split <;> simp

theorem mask_nil {s1 s2 : String} {k : Nat} {a : List Row} (h : ∀ r ∈ a, AtNeither s1 s2 r) :
    maskIndices s1 s2 k a = [] := by
  induction a generalizing k with
  | nil => rfl
  | cons r a ih =>
    simp only [maskIndices]
    have := h r List.mem_cons_self
    rw [if_neg (by rintro (h1 | h1); exacts [this.1 h1, this.2 h1])]
    exact ih fun r hr => h r (List.mem_cons_of_mem _ hr)

theorem mask_head {s1 s2 : String} {k : Nat} {r : Row} {a : List Row} (h : ¬ AtNeither s1 s2 r) :
    maskIndices s1 s2 k (r :: a) = k :: maskIndices s1 s2 (k + 1) a := by
  simp only [maskIndices]
  rw [if_pos]
  by_contra hc
  push Not at hc
  exact h ⟨hc.1, hc.2⟩

theorem idx_first {l m : List String} {s : String} (h : s ∉ l) : (l ++ s :: m).idxOf s = l.length := by
  rw [List.idxOf_append_of_notMem h, List.idxOf_cons_self, Nat.add_zero]

theorem idx_later {l m : List String} {s t : String} (h : t ∉ l) (hne : s ≠ t) :
    l.length < (l ++ s :: m).idxOf t := by
  rw [List.idxOf_append_of_notMem h, List.idxOf_cons_ne _ hne]; omega

theorem slice_middle {α : Type} (p m q : List α) (x : α) :
    ((p ++ x :: m ++ q).take (p.length + 1 + m.length)).drop (p.length + 1) = m := by
  have h1 : p ++ x :: m ++ q = (p ++ [x] ++ m) ++ q := by simp
  have h2 : p.length + 1 + m.length = (p ++ [x] ++ m).length := by simp; omega
  rw [h1, h2, List.take_left']
  · rw [show p.length + 1 = (p ++ [x]).length by simp, List.drop_left']
    rfl
  · rfl

/-- C45, the general case: if the first of the two stations is met no later than the second one,
the blocks are those strictly between the first and the last row of either station. -/
theorem C45_general (pre mid post : List Row) (r1 r2 : Row) (s1 s2 : String)
    (hpre : ∀ r ∈ pre, AtNeither s1 s2 r) (h1 : r1.station = some s1)
    (h2 : ¬ AtNeither s1 s2 r2) (hpost : ∀ r ∈ post, AtNeither s1 s2 r)
    (hs2 : Serves (pre ++ r1 :: mid ++ r2 :: post) s2) :
    blocksBetween (pre ++ r1 :: mid ++ r2 :: post) s1 s2 = (mid.map (·.path), some false) := by
  have hsts : trainImportantStations (pre ++ r1 :: mid ++ r2 :: post) =
      trainImportantStations pre ++ s1 :: trainImportantStations (mid ++ r2 :: post) := by
    simp [trainImportantStations, h1]
  have hn1 : s1 ∉ trainImportantStations pre := by
    rw [mem_stations]; rintro ⟨r, hr, h⟩; exact (hpre r hr).1 h
  have hn2 : s2 ∉ trainImportantStations pre := by
    rw [mem_stations]; rintro ⟨r, hr, h⟩; exact (hpre r hr).2 h
  unfold blocksBetween
  simp only
  have hm1 : ¬ (s1 ∉ trainImportantStations (pre ++ r1 :: mid ++ r2 :: post)) := by
    rw [hsts]; simp
  have hm2 : ¬ (s2 ∉ trainImportantStations (pre ++ r1 :: mid ++ r2 :: post)) := by
    rw [not_not, mem_stations]; exact hs2
  rw [if_neg hm1, if_neg hm2, hsts, idx_first hn1]
  rw [if_neg (by
    by_cases h : s1 = s2
    · subst h; rw [idx_first hn1]; omega
    · have := idx_later (m := trainImportantStations (mid ++ r2 :: post)) hn2 h; omega)]
  have hr1 : ¬ AtNeither s1 s2 r1 := fun h => h.1 h1
  have hmask : maskIndices s1 s2 0 (pre ++ r1 :: mid ++ r2 :: post) =
      pre.length :: (maskIndices s1 s2 (pre.length + 1) mid ++ [pre.length + 1 + mid.length]) := by
    rw [List.append_assoc, mask_append, mask_nil hpre, List.cons_append, mask_head hr1, mask_append,
      mask_head h2, mask_nil hpost]
    simp
  rw [hmask]
  simp only [List.head?_cons]
  rw [← List.cons_append, List.getLast?_append]
  simp only [List.getLast?_singleton, Option.some_or]
  simp only [List.map_append, List.map_cons]
  congr 1
  have := slice_middle (pre.map (·.path)) (mid.map (·.path)) (r2.path :: post.map (·.path)) r1.path
  simpa using this

/-- C45: for two stations with one row each, in travel order, the result is exactly the blocks of
the timetable strictly between them. -/
theorem C45_between (pre mid post : List Row) (r1 r2 : Row) (s1 s2 : String)
    (h1 : r1.station = some s1) (h2 : r2.station = some s2)
    (hpre : ∀ r ∈ pre, AtNeither s1 s2 r) (hpost : ∀ r ∈ post, AtNeither s1 s2 r) :
    blocksBetween (pre ++ r1 :: mid ++ r2 :: post) s1 s2 = (mid.map (·.path), some false) :=
  C45_general pre mid post r1 r2 s1 s2 hpre h1 (fun h => h.2 h2) hpost ⟨r2, by simp, h2⟩

/-- C45: for stations in the opposite order the result is no block and the flag. -/
theorem C45_reversed (pre post : List Row) (r1 : Row) (s1 s2 : String)
    (h1 : r1.station = some s1) (hne : s1 ≠ s2) (hpre : ∀ r ∈ pre, AtNeither s1 s2 r)
    (hs2 : Serves post s2) :
    blocksBetween (pre ++ r1 :: post) s2 s1 = ([], some true) := by
  have hsts : trainImportantStations (pre ++ r1 :: post) =
      trainImportantStations pre ++ s1 :: trainImportantStations post := by
    simp [trainImportantStations, h1]
  have hn1 : s1 ∉ trainImportantStations pre := by
    rw [mem_stations]; rintro ⟨r, hr, h⟩; exact (hpre r hr).1 h
  have hn2 : s2 ∉ trainImportantStations pre := by
    rw [mem_stations]; rintro ⟨r, hr, h⟩; exact (hpre r hr).2 h
  have hm2 : s2 ∈ trainImportantStations post := mem_stations.2 hs2
  unfold blocksBetween
  simp only
  rw [hsts, if_neg (by simp [hm2]), if_neg (by simp), idx_first hn1,
    if_pos (idx_later hn2 hne)]

/-- C45: a station that the train does not serve gives no block and no flag. -/
theorem C45_not_served (tt : List Row) (s1 s2 : String) (h : ¬ Serves tt s1 ∨ ¬ Serves tt s2) :
    blocksBetween tt s1 s2 = ([], none) := by
  unfold blocksBetween
  rw [← mem_stations, ← mem_stations] at h
  simp only
  rcases h with h | h
  · rw [if_pos h]
  · rw [if_pos h]; split <;> rfl

/-- the unreachable case of `blocksBetween` is indeed unreachable -/
theorem maskIndices_ne_nil {s1 s2 : String} {tt : List Row} (h : Serves tt s1) (k : Nat) :
    maskIndices s1 s2 k tt ≠ [] := by
  obtain ⟨r, hr, hs⟩ := h
  obtain ⟨a, b, rfl⟩ := List.append_of_mem hr
  rw [mask_append, mask_head (fun h => h.1 hs)]
  simp

/-- A timetable with stations `A` (block `a`), `B` (block `b`) and line blocks. -/
def exampleLine : List Row :=
  [{ path := "a", station := some "A", passingTime := some 1 },
   { path := "l1", passingTime := some 2 }, { path := "l2", passingTime := some 3 },
   { path := "b", station := some "B", passingTime := some 1 },
   { path := "l3", passingTime := some 1 }]

example : blocksBetween exampleLine "A" "B" = (["l1", "l2"], some false) ∧
    blocksBetween exampleLine "B" "A" = ([], some true) ∧
    blocksBetween exampleLine "A" "C" = ([], none) := by decide +kernel

/-- the hypotheses of `C45_between` for that timetable -/
example : ∃ pre mid post r1 r2, exampleLine = pre ++ r1 :: mid ++ r2 :: post ∧
    r1.station = some "A" ∧ r2.station = some "B" ∧ (∀ r ∈ pre, AtNeither "A" "B" r) ∧
    (∀ r ∈ post, AtNeither "A" "B" r) ∧ mid.length = 2 :=
  ⟨[], [{ path := "l1", passingTime := some 2 }, { path := "l2", passingTime := some 3 }],
   [{ path := "l3", passingTime := some 1 }],
   { path := "a", station := some "A", passingTime := some 1 },
   { path := "b", station := some "B", passingTime := some 1 },
   by decide +kernel, rfl, rfl, by simp, by simp [AtNeither], rfl⟩

/-! ## Common paths -/

theorem commonElements_cons_mem {l1 l2 : List String} {x : String} (h : x ∈ l2) :
    commonElements (x :: l1) l2 = x :: commonElements l1 l2 := by simp [commonElements, h]

theorem commonElements_cons_not {l1 l2 : List String} {x : String} (h : x ∉ l2) :
    commonElements (x :: l1) l2 = commonElements l1 l2 := by simp [commonElements, h]

/-- whatever `check_common_specific_elements_lists` returns is an initial part of the common
elements -/
theorem checkCommonGo_prefix (l2 : List String) (l1 short : List String)
    (acc : List (List String)) :
    flatten (checkCommonGo l2 l1 short acc) <+: flatten acc ++ (short ++ commonElements l1 l2) := by
  induction l1 generalizing short acc with
  | nil => exact List.prefix_append _ _
  | cons x l1 ih =>
    simp only [checkCommonGo]
    split
    · rename_i h
      rw [commonElements_cons_mem h]
      split
      · have := ih (short ++ [x]) acc
        simpa using this
      · have := ih [] (acc ++ [short ++ [x]])
        simpa using this
    · rename_i h
      rw [commonElements_cons_not h]
      exact ih short acc

/-- if the last element of the first list is common, nothing is lost -/
theorem checkCommonGo_eq (l2 : List String) (l1 short : List String) (acc : List (List String))
    (x : String) (hx : l1.getLast? = some x) (hm : x ∈ l2) :
    flatten (checkCommonGo l2 l1 short acc) = flatten acc ++ (short ++ commonElements l1 l2) := by
  induction l1 generalizing short acc with
  | nil => cases hx
  | cons y l1 ih =>
    simp only [checkCommonGo]
    cases l1 with
    | nil =>
      simp only [List.getLast?_singleton, Option.some.injEq] at hx
      subst hx
      rw [if_pos hm, commonElements_cons_mem hm]
      simp [checkCommonGo, commonElements]
    | cons z l1 =>
      rw [List.getLast?_cons_cons] at hx
      split
      · rename_i h
        rw [commonElements_cons_mem h]
        split
        · rw [ih _ _ hx]; simp
        · rw [ih _ _ hx]; simp
      · rename_i h
        rw [commonElements_cons_not h]
        exact ih _ _ hx

/-- C46, full statement: the common path consists of the blocks that both trains use between the
stations (`C45_between`), in the order of the first train. -/
def C46_statement (tt1 tt2 : List Row) (s1 s2 : String) : Prop :=
  commonPath tt1 tt2 s1 s2 =
    (blocksBetween tt1 s1 s2).1.filter fun b => decide (b ∈ (blocksBetween tt2 s1 s2).1)

theorem commonElements_self {α : Type} [DecidableEq α] (l : List α) : commonElements l l = l := by
  simp [commonElements]

/-- C46, what holds always: the common path is an initial part of the common blocks. -/
theorem C46_prefix_partial (tt1 tt2 : List Row) (s1 s2 : String) :
    commonPath tt1 tt2 s1 s2 <+:
      commonElements (blocksBetween tt1 s1 s2).1 (blocksBetween tt2 s1 s2).1 := by
  unfold commonPath
  simp only
  split
  · rename_i h; rw [h, commonElements_self]
  · have := checkCommonGo_prefix (blocksBetween tt2 s1 s2).1 (blocksBetween tt1 s1 s2).1 [] []
    simpa [checkCommon] using this

/-- C46 holds if the last block of the first train before the second station is used by the second
train, too. Missing: trains whose paths join and separate again. -/
theorem C46_common_path_partial (tt1 tt2 : List Row) (s1 s2 : String)
    (h : ∀ x, (blocksBetween tt1 s1 s2).1.getLast? = some x → x ∈ (blocksBetween tt2 s1 s2).1) :
    C46_statement tt1 tt2 s1 s2 := by
  unfold C46_statement commonPath
  change _ = commonElements _ _
  simp only
  split
  · rename_i h; rw [h, commonElements_self]
  · cases hx : (blocksBetween tt1 s1 s2).1.getLast? with
    | none =>
      rw [List.getLast?_eq_none_iff] at hx
      rw [hx]; rfl
    | some x =>
      have := checkCommonGo_eq (blocksBetween tt2 s1 s2).1 (blocksBetween tt1 s1 s2).1 [] [] x hx
        (h x hx)
      simpa [checkCommon] using this

/-- two trains that share the first block of the line and then use different blocks -/
def exampleFork1 : List Row :=
  [{ path := "a", station := some "A" }, { path := "l1", passingTime := some 2 },
   { path := "l2", passingTime := some 3 }, { path := "b", station := some "B" }]
/-- the second train -/
def exampleFork2 : List Row :=
  [{ path := "a", station := some "A" }, { path := "l1", passingTime := some 2 },
   { path := "l3", passingTime := some 3 }, { path := "b", station := some "B" }]

/-- C46 is false of the code: common blocks at the end of the scan that are followed by a block of
the first train only are lost. -/
theorem C46_false : ¬ ∀ tt1 tt2 s1 s2, C46_statement tt1 tt2 s1 s2 := by
  intro h
  have := h exampleFork1 exampleFork2 "A" "B"
  revert this
  unfold C46_statement
  decide +kernel

/-- two trains that use different first blocks and the same last one -/
def exampleMerge : List Row :=
  [{ path := "a", station := some "A" }, { path := "l1", passingTime := some 2 },
   { path := "l3", passingTime := some 3 }, { path := "b", station := some "B" }]
/-- the second train -/
def exampleMerge2 : List Row :=
  [{ path := "a", station := some "A" }, { path := "l2", passingTime := some 2 },
   { path := "l3", passingTime := some 3 }, { path := "b", station := some "B" }]

/-- the hypothesis of `C46_common_path_partial` for two trains on different paths -/
example : (∀ x, (blocksBetween exampleMerge "A" "B").1.getLast? = some x →
      x ∈ (blocksBetween exampleMerge2 "A" "B").1) ∧
    commonPath exampleMerge exampleMerge2 "A" "B" = ["l3"] := by
  constructor
  · have : (blocksBetween exampleMerge "A" "B").1.getLast? = some "l3" := by decide +kernel
    rw [this]
    intro x hx; cases hx
    decide +kernel
  · decide +kernel

/-- the test of `jd` whether a train joins a group: all its blocks between the stations are used by
the head of the group -/
theorem commonPath_eq_iff (tt1 tt2 : List Row) (s1 s2 : String) :
    commonPath tt1 tt2 s1 s2 = (blocksBetween tt1 s1 s2).1 ↔
      ∀ b ∈ (blocksBetween tt1 s1 s2).1, b ∈ (blocksBetween tt2 s1 s2).1 := by
  constructor
  · intro h b hb
    have h1 := C46_prefix_partial tt1 tt2 s1 s2
    rw [h] at h1
    have := h1.subset hb
    exact (mem_commonElements.1 this).2
  · intro h
    rw [C46_common_path_partial tt1 tt2 s1 s2 fun x hx => h x (List.mem_of_getLast? hx)]
    rw [List.filter_eq_self]
    intro x hx
    simpa using h x hx

end Verif
