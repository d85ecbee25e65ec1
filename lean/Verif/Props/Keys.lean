import Verif.Model.Helpers
import Std.Data.String.ToInt

/-!
# String keys: C52
-/

namespace Verif

/-- the name contains no underscore -/
def Plain (v : Val) : Prop := '_' ∉ v.render.toList

instance (v : Val) : Decidable (Plain v) := by unfold Plain; infer_instance

theorem plain_int (n : Int) : Plain (.int n) := by
  have h : ∀ k : Nat, '_' ∉ (Nat.repr k).toList := by
    intro k
    rw [Nat.toList_repr]
    exact Nat.underscore_not_in_toDigits
  show '_' ∉ (Int.repr n).toList
  rw [Int.repr_eq_if]
  split
  · exact h _
  · rw [String.toList_append, List.mem_append, not_or]
    exact ⟨by decide, h _⟩

/-- `str` of two integers, or of two strings, is different for different values -/
theorem render_int {n m : Int} (h : (Val.int n).render = (Val.int m).render) : n = m :=
  Int.repr_injective h

theorem render_str {s t : String} (h : (Val.str s).render = (Val.str t).render) : s = t := h

theorem split_underscore {a b x y : List Char} (ha : '_' ∉ a) (hb : '_' ∉ b)
    (h : a ++ '_' :: x = b ++ '_' :: y) : a = b ∧ x = y := by
  induction a generalizing b with
  | nil =>
    cases b with
    | nil => simpa using h
    | cons c b =>
      simp only [List.nil_append, List.cons_append, List.cons.injEq] at h
      exact absurd (by rw [← h.1]; simp) hb
  | cons c a ih =>
    cases b with
    | nil =>
      simp only [List.nil_append, List.cons_append, List.cons.injEq] at h
      exact absurd (by rw [h.1]; simp) ha
    | cons d b =>
      simp only [List.cons_append, List.cons.injEq] at h
      obtain ⟨h1, h2⟩ := ih (fun hm => ha (List.mem_cons_of_mem _ hm))
        (fun hm => hb (List.mem_cons_of_mem _ hm)) h.2
      exact ⟨by rw [h.1, h1], h2⟩

theorem split_render {a b : Val} {x y : String} (ha : Plain a) (hb : Plain b)
    (h : a.render ++ "_" ++ x = b.render ++ "_" ++ y) : a.render = b.render ∧ x = y := by
  have h' := congrArg String.toList h
  have hu : "_".toList = ['_'] := by decide
  simp only [String.toList_append, hu, List.append_assoc, List.singleton_append] at h'
  obtain ⟨h1, h2⟩ := split_underscore ha hb h'
  exact ⟨String.ext h1, String.ext h2⟩

/-- the full claim of C52 for keys of train and station -/
def KeysIdentify : Prop :=
  ∀ a b a' b' : Val, key2 a b = key2 a' b' → a = a' ∧ b = b'

/-- **C52 is false in general**: train `1_A` at `B` and train `1` at `A_B` have the same key, and so
have the integer `1` and the string `"1"`. Also integer train numbers do not help for the key of a
running time. -/
theorem C52_keys_false : ¬ KeysIdentify ∧
    (∃ n s t s' t', key3 (.int n) (.str s) (.str t) = key3 (.int n) (.str s') (.str t') ∧ s ≠ s') := by
  refine ⟨fun h => ?_, 1, "A", "B_C", "A_B", "C", by decide, by decide⟩
  have := (h (.str "1_A") (.str "B") (.str "1") (.str "A_B") (by decide)).1
  revert this; decide

/-- **C52, partial.** Full claim: `KeysIdentify` and the same for three and four components.
Missing: all names but the last must be free of underscores, and the printed names are identified
rather than the values (the integer `1` and the string `"1"` are printed alike). -/
theorem C52_keys_partial :
    (∀ {a b a' b' : Val}, Plain a → Plain a' → key2 a b = key2 a' b' →
      a.render = a'.render ∧ b.render = b'.render) ∧
    (∀ {a b c a' b' c' : Val}, Plain a → Plain a' → Plain b → Plain b' → key3 a b c = key3 a' b' c' →
      a.render = a'.render ∧ b.render = b'.render ∧ c.render = c'.render) ∧
    (∀ {a b c d a' b' c' d' : Val}, Plain a → Plain a' → Plain b → Plain b' → Plain c → Plain c' →
      key4 a b c d = key4 a' b' c' d' →
      a.render = a'.render ∧ b.render = b'.render ∧ c.render = c'.render ∧ d.render = d'.render) := by
  refine ⟨?_, ?_, ?_⟩
  · intro a b a' b' ha ha' h
    exact split_render ha ha' h
  · intro a b c a' b' c' ha ha' hb hb' h
    have h' : a.render ++ "_" ++ (b.render ++ "_" ++ c.render)
        = a'.render ++ "_" ++ (b'.render ++ "_" ++ c'.render) := by
      simpa only [key3, String.append_assoc] using h
    obtain ⟨h1, h2⟩ := split_render ha ha' h'
    exact ⟨h1, split_render hb hb' h2⟩
  · intro a b c d a' b' c' d' ha ha' hb hb' hc hc' h
    have h' : a.render ++ "_" ++ (b.render ++ "_" ++ (c.render ++ "_" ++ d.render))
        = a'.render ++ "_" ++ (b'.render ++ "_" ++ (c'.render ++ "_" ++ d'.render)) := by
      simpa only [key4, String.append_assoc] using h
    obtain ⟨h1, h2⟩ := split_render ha ha' h'
    obtain ⟨h3, h4⟩ := split_render hb hb' h2
    exact ⟨h1, h3, split_render hc hc' h4⟩

/-- **C52 for the data of the project**: trains are integers, stations strings; the keys of
train and station identify both without further conditions, the other keys if the station names
contain no underscore. -/
theorem C52_intTrains_partial :
    (∀ n m s t, key2 (.int n) (.str s) = key2 (.int m) (.str t) → n = m ∧ s = t) ∧
    (∀ n m s t s' t', Plain (.str s) → Plain (.str s') →
      key3 (.int n) (.str s) (.str t) = key3 (.int m) (.str s') (.str t') →
      n = m ∧ s = s' ∧ t = t') ∧
    (∀ n k m l s t s' t', Plain (.str s) → Plain (.str s') →
      key4 (.int n) (.int k) (.str s) (.str t) = key4 (.int m) (.int l) (.str s') (.str t') →
      n = m ∧ k = l ∧ s = s' ∧ t = t') := by
  refine ⟨?_, ?_, ?_⟩
  · intro n m s t h
    obtain ⟨h1, h2⟩ := C52_keys_partial.1 (plain_int n) (plain_int m) h
    exact ⟨render_int h1, h2⟩
  · intro n m s t s' t' hs hs' h
    obtain ⟨h1, h2, h3⟩ := C52_keys_partial.2.1 (plain_int n) (plain_int m) hs hs' h
    exact ⟨render_int h1, h2, h3⟩
  · intro n k m l s t s' t' hs hs' h
    obtain ⟨h1, h2, h3, h4⟩ := C52_keys_partial.2.2 (plain_int n) (plain_int m) (plain_int k)
      (plain_int l) hs hs' h
    exact ⟨render_int h1, render_int h2, h3, h4⟩

/-- names of the project meet the hypotheses -/
example : Plain (.str "KO(STM)") ∧ Plain (.int 94766) ∧
    key3 (.int 94766) (.str "KO(STM)") (.str "KO") = "94766_KO(STM)_KO" := by
  refine ⟨by decide, plain_int _, by decide⟩

end Verif
