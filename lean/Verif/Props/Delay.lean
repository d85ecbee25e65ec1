import Verif.Props.Schedule

/-!
# C39: delaying a train
-/

namespace Verif

/-- C39, full statement: exactly the entries of the given train are increased. -/
def C39_statement : Prop :=
  ∀ (ic : Dict String ℚ) (train : Int) (delay : ℚ), (Dict.keys ic).Nodup →
    ∀ t s, Dict.get? (addDelay ic train delay) (key2 (.int t) (.str s)) =
      if t = train then (Dict.get? ic (key2 (.int t) (.str s))).map (· + delay)
      else Dict.get? ic (key2 (.int t) (.str s))

/-- the text `train_` occurs in the key of a train and a station exactly if the digits of the train
end with those of `train`, or the text occurs in the name of the station -/
theorem contains_key {n t : Int} {s : String} :
    strContains (key2 (.int t) (.str s)) ((Val.int n).render ++ "_") = true ↔
      ((Val.int n).render.toList <:+ (Val.int t).render.toList ∨
        strContains s ((Val.int n).render ++ "_") = true) := by
  have hn : '_' ∉ (Val.int n).render.toList := plain_int n
  have ht : '_' ∉ (Val.int t).render.toList := plain_int t
  have hu : "_".toList = ['_'] := by decide
  simp only [strContains, decide_eq_true_eq, key2, String.toList_append, hu]
  generalize (Val.int n).render.toList = a at hn ⊢
  generalize (Val.int t).render.toList = b at ht ⊢
  change a ++ ['_'] <:+: b ++ ['_'] ++ s.toList ↔ _
  generalize s.toList = c
  constructor
  · rintro ⟨x, y, h⟩
    rw [List.append_assoc, List.append_assoc, List.append_assoc] at h
    simp only [List.singleton_append] at h
    have h' : (x ++ a) ++ '_' :: y = b ++ '_' :: c := by rw [← h]; simp
    rw [List.append_eq_append_iff] at h'
    rcases h' with ⟨z, h1, h2⟩ | ⟨z, h1, h2⟩
    · cases z with
      | nil =>
        rw [List.append_nil] at h1
        exact .inl ⟨x, h1.symm⟩
      | cons w z =>
        simp only [List.cons_append, List.cons.injEq] at h2
        exact absurd (by rw [h1, ← h2.1]; simp) ht
    · cases z with
      | nil =>
        rw [List.append_nil] at h1
        exact .inl ⟨x, h1⟩
      | cons w z =>
        simp only [List.cons_append, List.cons.injEq] at h2
        obtain ⟨rfl, h2⟩ := h2
        right
        -- the underscore of the key is left of the occurrence
        rw [List.append_eq_append_iff] at h1
        rcases h1 with ⟨u, h3, h4⟩ | ⟨u, h3, h4⟩
        · exfalso
          apply hn
          rw [h4]; simp
        · cases u with
          | nil =>
            simp only [List.nil_append] at h4
            exact absurd (by rw [← h4]; simp) hn
          | cons q u =>
            simp only [List.cons_append, List.cons.injEq] at h4
            refine ⟨u, y, ?_⟩
            rw [h2, h4.2]; simp
  · rintro (⟨x, rfl⟩ | ⟨x, y, rfl⟩)
    · exact ⟨x, c, by simp⟩
    · exact ⟨b ++ '_' :: x, y, by simp⟩

/-- what is computed: the entries whose key contains `train_` are increased -/
theorem addDelay_get? {ic : Dict String ℚ} (hk : (Dict.keys ic).Nodup) (train : Int) (delay : ℚ)
    (k : String) : Dict.get? (addDelay ic train delay) k =
      if strContains k ((Val.int train).render ++ "_") = true then
        (Dict.get? ic k).map (· + delay)
      else Dict.get? ic k := by
  unfold addDelay
  simp only
  set new := (ic.filter fun e => strContains e.1 ((Val.int train).render ++ "_")).map
    fun e => (e.1, e.2 + delay) with hnew
  have hmem : ∀ k v, (k, v) ∈ new ↔ ∃ w, (k, w) ∈ ic ∧
      strContains k ((Val.int train).render ++ "_") = true ∧ v = w + delay := by
    intro k v
    rw [hnew, List.mem_map]
    constructor
    · rintro ⟨⟨a, b⟩, h, he⟩
      simp only [Prod.mk.injEq] at he
      obtain ⟨rfl, rfl⟩ := he
      rw [List.mem_filter] at h
      exact ⟨b, h.1, h.2, rfl⟩
    · rintro ⟨w, h1, h2, rfl⟩
      exact ⟨(k, w), List.mem_filter.2 ⟨h1, h2⟩, rfl⟩
  have hcons : ∀ k v v', (k, v) ∈ new → (k, v') ∈ new → v = v' := by
    intro k v v' h1 h2
    obtain ⟨w, h3, _, rfl⟩ := (hmem _ _).1 h1
    obtain ⟨w', h4, _, rfl⟩ := (hmem _ _).1 h2
    have e1 := Dict.get?_of_mem hk h3
    rw [Dict.get?_of_mem hk h4] at e1
    cases e1; rfl
  by_cases hc : strContains k ((Val.int train).render ++ "_") = true
  · rw [if_pos hc]
    cases hg : Dict.get? ic k with
    | none =>
      have : k ∉ Dict.keys new := by
        intro hin
        obtain ⟨⟨a, b⟩, h1, rfl⟩ := List.mem_map.1 hin
        obtain ⟨w, h2, _⟩ := (hmem _ _).1 h1
        rw [Dict.get?_of_mem hk h2] at hg; cases hg
      rw [get?_update_notMem this, hg]; rfl
    | some w =>
      rw [Option.map_some]
      exact (get?_update hcons k _).2 (.inl ((hmem _ _).2 ⟨w, Dict.mem_of_get? hg, hc, rfl⟩))
  · rw [if_neg hc]
    refine get?_update_notMem ?_
    intro hin
    obtain ⟨⟨a, b⟩, h1, rfl⟩ := List.mem_map.1 hin
    obtain ⟨w, _, h2, _⟩ := (hmem _ _).1 h1
    exact hc h2

theorem keys_update_subset {d e : Dict String ℚ} (h : ∀ k ∈ Dict.keys e, k ∈ Dict.keys d) :
    Dict.keys (Dict.update d e) = Dict.keys d := by
  induction e generalizing d with
  | nil => rfl
  | cons p e ih =>
    have h1 : Dict.keys (Dict.set d p.1 p.2) = Dict.keys d := by
      rw [Dict.keys_set, if_pos (h p.1 (by simp [Dict.keys]))]
    change Dict.keys (Dict.update (Dict.set d p.1 p.2) e) = _
    rw [ih, h1]
    intro k hk
    rw [h1]
    exact h k (by simp only [Dict.keys, List.map_cons, List.mem_cons]; exact .inr hk)

/-- no entry is added or removed -/
theorem C39_keys (ic : Dict String ℚ) (train : Int) (delay : ℚ) :
    Dict.keys (addDelay ic train delay) = Dict.keys ic := by
  refine keys_update_subset ?_
  intro k hk
  obtain ⟨x, hx, rfl⟩ := List.mem_map.1 hk
  obtain ⟨y, hy, rfl⟩ := List.mem_map.1 hx
  exact List.mem_map.2 ⟨y, (List.mem_filter.1 hy).1, rfl⟩

/-- the digits of no other train with an entry end with those of the given train, and no station
name contains them followed by an underscore -/
def NoOtherTrain (ic : Dict String ℚ) (train : Int) : Prop :=
  ∀ t s, Dict.has ic (key2 (.int t) (.str s)) = true →
    ((Val.int train).render.toList <:+ (Val.int t).render.toList → t = train) ∧
    (t ≠ train → strContains s ((Val.int train).render ++ "_") = false)

/-- C39 when no other key contains the number of the train before an underscore. Missing: the
other cases, for which the statement is false. -/
theorem C39_delay_partial (ic : Dict String ℚ) (train : Int) (delay : ℚ)
    (hk : (Dict.keys ic).Nodup) (hno : NoOtherTrain ic train) (t : Int) (s : String) :
    Dict.get? (addDelay ic train delay) (key2 (.int t) (.str s)) =
      if t = train then (Dict.get? ic (key2 (.int t) (.str s))).map (· + delay)
      else Dict.get? ic (key2 (.int t) (.str s)) := by
  rw [addDelay_get? hk]
  by_cases ht : t = train
  · rw [if_pos ht, if_pos (contains_key.2 (.inl (by rw [ht])))]
  · rw [if_neg ht]
    cases hg : Dict.get? ic (key2 (.int t) (.str s)) with
    | none => split <;> rfl
    | some v =>
      have h := hno t s (by simp [Dict.has, hg])
      rw [if_neg]
      rw [contains_key]
      rintro (h1 | h1)
      · exact ht (h.1 h1)
      · rw [h.2 ht] at h1; cases h1

/-- C39 is false of the code: delaying train 1 also delays train 21. -/
theorem C39_false : ¬ C39_statement := by
  intro h
  have := h [("1_A", 0), ("21_A", 5)] 1 10 (by decide +kernel) 21 "A"
  revert this; decide +kernel

/-- which entries are changed, for all keys of trains and stations -/
theorem C39_computed (ic : Dict String ℚ) (train : Int) (delay : ℚ) (hk : (Dict.keys ic).Nodup)
    (t : Int) (s : String) (v : ℚ) (hv : Dict.get? ic (key2 (.int t) (.str s)) = some v) :
    Dict.get? (addDelay ic train delay) (key2 (.int t) (.str s)) = some (v + delay) ∧
        ((Val.int train).render.toList <:+ (Val.int t).render.toList ∨
          strContains s ((Val.int train).render ++ "_") = true) ∨
      Dict.get? (addDelay ic train delay) (key2 (.int t) (.str s)) = some v ∧
        ¬ ((Val.int train).render.toList <:+ (Val.int t).render.toList ∨
          strContains s ((Val.int train).render ++ "_") = true) := by
  rw [addDelay_get? hk, hv]
  by_cases hc : strContains (key2 (.int t) (.str s)) ((Val.int train).render ++ "_") = true
  · rw [if_pos hc]; exact .inl ⟨rfl, contains_key.1 hc⟩
  · rw [if_neg hc]; exact .inr ⟨rfl, fun h => hc (contains_key.2 h)⟩

/-- the hypotheses of `C39_delay_partial` hold for trains with numbers of equal length -/
theorem noOtherTrain_example : NoOtherTrain [("421_A", 0), ("521_B", 5)] 421 := by
  intro t s h
  simp only [Dict.has, Dict.get?] at h
  split at h
  · rename_i h1
    obtain ⟨rfl, rfl⟩ := C52_intTrains_partial.1 421 t "A" s (by rw [← h1]; decide +kernel)
    exact ⟨fun _ => rfl, fun h => absurd rfl h⟩
  · split at h
    · rename_i h1
      obtain ⟨rfl, rfl⟩ := C52_intTrains_partial.1 521 t "B" s (by rw [← h1]; decide +kernel)
      exact ⟨fun h => absurd h (by decide +kernel), fun _ => by decide +kernel⟩
    · cases h

example : addDelay [("421_A", 0), ("521_B", 5)] 421 10 = [("421_A", 10), ("521_B", 5)] := by
  decide +kernel

end Verif
