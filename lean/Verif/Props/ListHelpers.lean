import Verif.Model.Utils

/-!
# C53: grouping and list helpers
-/

namespace Verif

/-! ## flatten and common_elements -/

/-- C53: `flatten` is concatenation. -/
theorem C53_flatten {α : Type} (t : List (List α)) : flatten t = t.foldr (· ++ ·) [] := by
  induction t with
  | nil => rfl
  | cons l t ih => simp only [flatten, List.flatMap_cons, List.foldr_cons] at *; rw [ih]

@[simp] theorem flatten_nil {α : Type} : flatten ([] : List (List α)) = [] := rfl

@[simp] theorem flatten_cons {α : Type} (l : List α) (t : List (List α)) :
    flatten (l :: t) = l ++ flatten t := by simp [flatten]

@[simp] theorem flatten_append {α : Type} (t u : List (List α)) :
    flatten (t ++ u) = flatten t ++ flatten u := by simp [flatten]

theorem mem_flatten' {α : Type} {t : List (List α)} {x : α} :
    x ∈ flatten t ↔ ∃ l ∈ t, x ∈ l := by simp [flatten]

example : flatten [[1, 2], [], [2, 3]] = [1, 2, 2, 3] := by decide

/-- C53: `common_elements` keeps the order of the first list, keeps every occurrence of an element
that is in the second list and no occurrence of any other; these three facts determine it. -/
theorem C53_common_elements {α : Type} [DecidableEq α] (l1 l2 r : List α) :
    r = commonElements l1 l2 ↔
      r.Sublist l1 ∧ (∀ x ∈ l2, r.count x = l1.count x) ∧ (∀ x ∈ r, x ∈ l2) := by
  constructor
  · rintro rfl
    refine ⟨List.filter_sublist, ?_, ?_⟩
    · intro x hx
      unfold commonElements
      rw [List.count_filter]; simpa using hx
    · intro x hx
      simpa [commonElements] using (List.mem_filter.1 hx).2
  · rintro ⟨hs, hc, hm⟩
    unfold commonElements
    induction hs with
    | slnil => rfl
    | @cons r l1 a hs ih =>
      have ha : a ∉ l2 := by
        intro ha
        have h1 := hc a ha
        have h2 := hs.count_le a
        rw [List.count_cons_self] at h1
        omega
      have hc' : ∀ x ∈ l2, List.count x r = List.count x l1 := by
        intro x hx
        have h1 := hc x hx
        rw [List.count_cons_of_ne (by rintro rfl; exact ha hx)] at h1
        exact h1
      rw [List.filter_cons_of_neg (by simpa using ha)]
      exact ih hc' hm
    | @cons_cons r l1 a hs ih =>
      have ha : a ∈ l2 := hm a List.mem_cons_self
      rw [List.filter_cons_of_pos (by simpa using ha)]
      congr 1
      refine ih ?_ fun x hx => hm x (List.mem_cons_of_mem _ hx)
      intro x hx
      have h1 := hc x hx
      simp only [List.count_cons] at h1
      omega

theorem mem_commonElements {α : Type} [DecidableEq α] {l1 l2 : List α} {x : α} :
    x ∈ commonElements l1 l2 ↔ x ∈ l1 ∧ x ∈ l2 := by
  simp [commonElements]

example : commonElements ["a", "b", "c", "b"] ["c", "d", "b"] = ["b", "c", "b"] := by decide +kernel

/-! ## sub_lists -/

theorem mem_subLists {α : Type} {l : List α} {b : Bool} {x : List α} :
    x ∈ subLists l b ↔ ∃ i j, i ≤ l.length ∧ j < i ∧ x = (l.take i).drop j ∧
      (b = true → 2 ≤ x.length) := by
  unfold subLists
  simp only [List.mem_flatMap, List.mem_range]
  constructor
  · rintro ⟨i, hi, j, hj, h⟩
    split at h
    · cases h
    · rename_i hc
      simp only [List.mem_singleton] at h
      refine ⟨i, j, by omega, hj, h, ?_⟩
      rintro rfl
      simp only [Bool.true_and, decide_eq_true_eq] at hc
      rw [h]; omega
  · rintro ⟨i, j, hi, hj, rfl, hb⟩
    refine ⟨i, by omega, j, hj, ?_⟩
    split
    · rename_i hc
      simp only [Bool.and_eq_true, decide_eq_true_eq] at hc
      have := hb hc.1; omega
    · simp

/-- C53: `sub_lists` lists exactly the non-empty contiguous sublists, with `no_single` only those
of at least two elements. -/
theorem C53_sub_lists {α : Type} (l : List α) (b : Bool) (x : List α) :
    x ∈ subLists l b ↔ x <:+: l ∧ x ≠ [] ∧ (b = true → 2 ≤ x.length) := by
  rw [mem_subLists]
  constructor
  · rintro ⟨i, j, hi, hj, rfl, hb⟩
    refine ⟨?_, ?_, hb⟩
    · exact (List.drop_suffix j _).isInfix.trans (List.take_prefix i l).isInfix
    · intro h
      have := congrArg List.length h
      simp at this; omega
  · rintro ⟨⟨p, q, rfl⟩, hne, hb⟩
    refine ⟨p.length + x.length, p.length, by simp, ?_, ?_, hb⟩
    · have := List.length_pos_of_ne_nil hne; omega
    · simp [List.take_append]

theorem sum_range (n : Nat) : 2 * ((List.range n).map fun i => i).sum = n * (n - 1) := by
  induction n with
  | zero => rfl
  | succ n ih =>
    rw [List.range_succ, List.map_append, List.sum_append]
    simp only [List.map_cons, List.map_nil, List.sum_cons, List.sum_nil]
    cases n with
    | zero => rfl
    | succ n =>
      simp only [Nat.succ_sub_succ_eq_sub, Nat.add_zero, Nat.sub_zero] at *
      rw [Nat.mul_add, ih]
      simp only [Nat.add_mul, Nat.mul_add, Nat.one_mul, Nat.mul_one]
      omega

/-- C53: every non-empty interval of positions is listed once, so there are `n (n + 1) / 2`
sublists. -/
theorem C53_sub_lists_count {α : Type} (l : List α) :
    2 * (subLists l false).length = l.length * (l.length + 1) := by
  have h : (subLists l false).length = ((List.range (l.length + 1)).map fun i => i).sum := by
    unfold subLists
    rw [List.length_flatMap]
    congr 1
    apply List.map_congr_left
    intro i _
    rw [List.length_flatMap]
    simp
  rw [h, sum_range]
  simp [Nat.mul_comm]

example : subLists [1, 2, 3] true = [[1, 2], [1, 2, 3], [2, 3]] := by decide

/-! ## Nested lists -/

mutual
/-- the leaves of an element, in order -/
def Nested.leaves {α : Type} : Nested α → List α
  | .leaf a => [a]
  | .list l => Nested.leavesList l
/-- the leaves of a list of elements, in order -/
def Nested.leavesList {α : Type} : List (Nested α) → List α
  | [] => []
  | e :: rest => e.leaves ++ Nested.leavesList rest
end

mutual
theorem sizeOfNested_eq {α : Type} : ∀ e : Nested α, sizeOfNested e = e.leaves.length
  | .leaf _ => by simp [sizeOfNested, Nested.leaves]
  | .list l => by simp only [sizeOfNested, Nested.leaves]; exact C53_nested_size l
/-- C53: `getSizeOfNestedList` counts the leaves. -/
theorem C53_nested_size {α : Type} :
    ∀ l : List (Nested α), sizeOfNestedList l = (Nested.leavesList l).length
  | [] => by simp [sizeOfNestedList, Nested.leavesList]
  | e :: rest => by
    simp only [sizeOfNestedList, Nested.leavesList, List.length_append]
    rw [sizeOfNested_eq e, C53_nested_size rest]
end

example : sizeOfNestedList [.list [.leaf 1, .list [.leaf 2, .leaf 3], .list []], .leaf 4] = 4 := by
  decide

/-! ## reverse_dict_of_lists -/

/-- the list stored under a key, empty if there is none (`defaultdict(list)`) -/
def Dict.listAt {K V : Type} [DecidableEq K] (d : Dict K (List V)) (k : K) : List V :=
  (Dict.get? d k).getD []

theorem rev_inner {K V : Type} [DecidableEq K] [DecidableEq V] (k : K) (vs : List V)
    (acc : Dict V (List K)) (v : V) :
    Dict.listAt (vs.foldl (fun acc v => Dict.set acc v ((Dict.get? acc v).getD [] ++ [k])) acc) v
      = Dict.listAt acc v ++ List.replicate (vs.count v) k := by
  induction vs generalizing acc with
  | nil => simp
  | cons w vs ih =>
    rw [List.foldl_cons, ih]
    unfold Dict.listAt
    rw [Dict.get?_set]
    by_cases h : v = w
    · subst h
      simp [List.replicate_succ]
    · simp [h, List.count_cons_of_ne (Ne.symm h)]

theorem rev_keys_inner {K V : Type} [DecidableEq V] (k : K) (vs : List V)
    (acc : Dict V (List K)) (v : V) :
    v ∈ Dict.keys (vs.foldl (fun acc v => Dict.set acc v ((Dict.get? acc v).getD [] ++ [k])) acc)
      ↔ v ∈ Dict.keys acc ∨ v ∈ vs := by
  induction vs generalizing acc with
  | nil => simp
  | cons w vs ih =>
    rw [List.foldl_cons, ih, Dict.keys_set]
    split
    · rename_i h
      simp only [List.mem_cons]
      constructor
      · rintro (h1 | h1)
        · exact .inl h1
        · exact .inr (.inr h1)
      · rintro (h1 | rfl | h1)
        · exact .inl h1
        · exact .inl h
        · exact .inr h1
    · simp only [List.mem_append, List.mem_cons]; tauto

theorem rev_fold {K V : Type} [DecidableEq K] [DecidableEq V] (d : Dict K (List V))
    (acc : Dict V (List K)) (v : V) :
    Dict.listAt (d.foldl (fun acc e =>
      e.2.foldl (fun acc v => Dict.set acc v ((Dict.get? acc v).getD [] ++ [e.1])) acc) acc) v
      = Dict.listAt acc v ++ d.flatMap fun e => List.replicate (e.2.count v) e.1 := by
  induction d generalizing acc with
  | nil => simp
  | cons e d ih =>
    rw [List.foldl_cons, ih, rev_inner, List.append_assoc, List.flatMap_cons]

theorem rev_keys_fold {K V : Type} [DecidableEq V] (d : Dict K (List V))
    (acc : Dict V (List K)) (v : V) :
    v ∈ Dict.keys (d.foldl (fun acc e =>
      e.2.foldl (fun acc v => Dict.set acc v ((Dict.get? acc v).getD [] ++ [e.1])) acc) acc)
      ↔ v ∈ Dict.keys acc ∨ ∃ e ∈ d, v ∈ e.2 := by
  induction d generalizing acc with
  | nil => simp
  | cons e d ih =>
    rw [List.foldl_cons, ih, rev_keys_inner]
    simp only [List.mem_cons, exists_eq_or_imp]
    tauto

/-- C53: `reverse_dict_of_lists` is the inverse relation with multiplicities: `k` occurs under `v`
as often as `v` occurs under `k`; its keys are the values that occur. -/
theorem C53_reverse {K V : Type} [DecidableEq K] [DecidableEq V] (d : Dict K (List V))
    (hd : (Dict.keys d).Nodup) :
    (∀ k v, (Dict.listAt (reverseDictOfLists d) v).count k = (Dict.listAt d k).count v) ∧
    (∀ v, v ∈ Dict.keys (reverseDictOfLists d) ↔ ∃ k, v ∈ Dict.listAt d k) := by
  constructor
  · intro k v
    unfold reverseDictOfLists
    rw [rev_fold]
    simp only [Dict.listAt, Dict.get?, Option.getD_none, List.nil_append]
    induction d with
    | nil => simp [Dict.get?]
    | cons e d ih =>
      obtain ⟨a, l⟩ := e
      simp only [Dict.keys, List.map_cons, List.nodup_cons] at hd
      rw [List.flatMap_cons, List.count_append, ih hd.2]
      simp only [Dict.get?, List.count_replicate]
      by_cases h : a = k
      · subst h
        have hn : Dict.get? d a = none := by
          by_contra hc
          have : (Dict.get? d a).isSome := by
            cases hg : Dict.get? d a with
            | none => exact absurd hg hc
            | some _ => rfl
          exact hd.1 ((Dict.get?_isSome d a).1 this)
        simp [hn]
      · simp [h]
  · intro v
    unfold reverseDictOfLists
    rw [rev_keys_fold]
    simp only [Dict.keys, List.map_nil, List.not_mem_nil, false_or]
    constructor
    · rintro ⟨e, he, hv⟩
      refine ⟨e.1, ?_⟩
      rw [Dict.listAt, Dict.get?_of_mem hd (v := e.2) he]; exact hv
    · rintro ⟨k, hv⟩
      unfold Dict.listAt at hv
      cases hg : Dict.get? d k with
      | none => rw [hg] at hv; simp at hv
      | some l =>
        rw [hg] at hv
        exact ⟨(k, l), Dict.mem_of_get? hg, hv⟩

example : reverseDictOfLists [(1, ["a", "b", "a"]), (2, ["b"])] = [("a", [1, 1]), ("b", [1, 2])] := by
  decide +kernel

/-! ## sublist -/

theorem infix_sep {α : Type} {c : α} {a x y : List α} (hc : c ∉ a) :
    a <:+: x ++ c :: y ↔ a <:+: x ∨ a <:+: y := by
  constructor
  · rintro ⟨s, t, e⟩
    rw [List.append_assoc, List.append_eq_append_iff] at e
    rcases e with ⟨u, rfl, e⟩ | ⟨u, rfl, e⟩
    · rw [List.append_eq_append_iff] at e
      rcases e with ⟨w, rfl, e⟩ | ⟨w, rfl, e⟩
      · exact .inl ⟨s, w, by simp⟩
      · cases w with
        | nil => exact .inl ⟨s, [], by simp⟩
        | cons d w =>
          simp only [List.cons_append, List.cons.injEq] at e
          obtain ⟨rfl, -⟩ := e
          exact absurd (by simp) hc
    · cases u with
      | nil =>
        cases a with
        | nil => exact .inl List.nil_infix
        | cons d a =>
          simp only [List.nil_append, List.cons_append, List.cons.injEq] at e
          obtain ⟨rfl, -⟩ := e
          exact absurd (by simp) hc
      | cons d u =>
        simp only [List.cons_append, List.cons.injEq] at e
        obtain ⟨-, rfl⟩ := e
        exact .inr ⟨u, t, by simp⟩
  · rintro (⟨s, t, rfl⟩ | ⟨s, t, rfl⟩)
    · exact ⟨s, t ++ c :: y, by simp⟩
    · exact ⟨x ++ c :: s, t, by simp⟩

/-- C46, the substring test: a single name without spaces is found exactly when it is a part of one of
the names in the list. -/
theorem C46_sublist {a : String} (hs : ' ' ∉ a.toList) (hne : a ≠ "") (l : List String) :
    sublist [a] l = true ↔ ∃ b ∈ l, a.toList <:+: b.toList := by
  unfold sublist strContains
  rw [decide_eq_true_eq]
  show a.toList <:+: _ ↔ _
  induction l with
  | nil =>
    simp only [joinSpace, List.not_mem_nil, false_and, exists_false, iff_false]
    intro h
    exact hne (String.toList_inj.1 (by simpa using h))
  | cons x l ih =>
    cases l with
    | nil => simp [joinSpace]
    | cons y l =>
      simp only [joinSpace, String.toList_append]
      rw [show x.toList ++ " ".toList ++ (joinSpace (y :: l)).toList =
        x.toList ++ ' ' :: (joinSpace (y :: l)).toList by simp, infix_sep hs, ih]
      simp

example : sublist ["1"] ["a", "213"] = true ∧ sublist ["12"] ["1", "2"] = false ∧
    sublist ["1", "2"] ["1", "2"] = true ∧ sublist ["1", "2"] ["31", "24"] = true ∧
    sublist ["1", "2"] ["12"] = false := by decide +kernel

end Verif
