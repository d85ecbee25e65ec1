import Mathlib.Data.List.Basic
import Mathlib.Data.List.Infix
import Mathlib.Algebra.Order.Field.Rat
import Mathlib.Tactic.Linarith

/-!
# The Python layer

Exceptions as values, Python values used as train and station names, insertion ordered
dictionaries, loops. Nothing here is specific to railways.
-/

namespace Verif

/-- The exceptions that the modelled code can raise. -/
inductive PyErr
  | keyError | valueError | indexError | typeError | assertionError | attributeError
  | zeroDivision | pulpError | unboundLocal | nameError | systemExit | recursionError
  deriving DecidableEq, Repr

/-- Result of a Python call. -/
abbrev Py (α : Type) := Except PyErr α

/-- Python values used as names of trains and stations: `None`, `int`, `str`.
(`previous_station` returns `None`, tests use both `int` and `str` names.) -/
inductive Val
  | none
  | int (n : Int)
  | str (s : String)
  deriving DecidableEq, Repr

/-- `str(v)`, as used by f-strings. -/
def Val.render : Val → String
  | .none => "None"
  | .int n => toString n
  | .str s => s

/-- `sub in text` for two Python strings. -/
def strContains (text sub : String) : Bool := decide (sub.toList <:+: text.toList)

/-- `a in b` for two Python values: substring test for strings, `TypeError` otherwise. -/
def pyIn (a b : Val) : Py Bool :=
  match b, a with
  | .str t, .str s => .ok (strContains t s)
  | _, _ => .error .typeError

/-! ## Dictionaries -/

/-- A Python dict as the list of its items in insertion order. -/
abbrev Dict (K V : Type) := List (K × V)

namespace Dict
variable {K V : Type} [DecidableEq K]

/-- `d.get(k)` -/
def get? (d : Dict K V) (k : K) : Option V :=
  match d with
  | [] => .none
  | (k', v) :: rest => if k' = k then some v else get? rest k

/-- `k in d` -/
def has (d : Dict K V) (k : K) : Bool := (get? d k).isSome

/-- `d[k]` (raises `KeyError`) -/
def at! (d : Dict K V) (k : K) : Py V :=
  match get? d k with
  | some v => .ok v
  | .none => .error .keyError

/-- `d[k] = v`: overwrite in place, or append. -/
def set (d : Dict K V) (k : K) (v : V) : Dict K V :=
  match d with
  | [] => [(k, v)]
  | (k', v') :: rest => if k' = k then (k', v) :: rest else (k', v') :: set rest k v

/-- `d.keys()` -/
def keys (d : Dict K V) : List K := d.map Prod.fst

/-- `d1.update(d2)` -/
def update (d e : Dict K V) : Dict K V := e.foldl (fun acc p => set acc p.1 p.2) d

end Dict

/-! ## Loops -/

/-- A `for` loop whose body only appends to a list (the emitted items), stopping at the first
exception. -/
def collect {α β : Type} (xs : List α) (f : α → Py (List β)) : Py (List β) :=
  match xs with
  | [] => .ok []
  | x :: rest =>
    match f x with
    | .error e => .error e
    | .ok a =>
      match collect rest f with
      | .error e => .error e
      | .ok b => .ok (a ++ b)

/-- A `for` loop that threads a state, stopping at the first exception. -/
def loop {α σ : Type} (xs : List α) (f : σ → α → Py σ) (s : σ) : Py σ :=
  match xs with
  | [] => .ok s
  | x :: rest =>
    match f s x with
    | .error e => .error e
    | .ok s' => loop rest f s'

/-- A list comprehension whose body may raise. -/
def mapPy {α β : Type} (f : α → Py β) : List α → Py (List β)
  | [] => .ok []
  | x :: rest =>
    match f x with
    | .error e => .error e
    | .ok a =>
      match mapPy f rest with
      | .error e => .error e
      | .ok b => .ok (a :: b)

/-- `itertools.combinations(xs, 2)` -/
def pairs {α : Type} : List α → List (α × α)
  | [] => []
  | x :: rest => rest.map (fun y => (x, y)) ++ pairs rest

/-- `xs.index(x)` (raises `ValueError`) -/
def index {α : Type} [DecidableEq α] (xs : List α) (x : α) : Py Nat :=
  match xs with
  | [] => .error .valueError
  | y :: rest =>
    if y = x then .ok 0
    else match index rest x with
      | .ok n => .ok (n + 1)
      | .error e => .error e

/-- `xs[i]` for a non-negative index (raises `IndexError`) -/
def nth {α : Type} (xs : List α) (i : Nat) : Py α :=
  match xs[i]? with
  | some x => .ok x
  | .none => .error .indexError

/-! ## Lemmas -/

theorem bind_ok {α β : Type} {m : Py α} {f : α → Py β} {b : β}
    (h : (m >>= f) = .ok b) : ∃ a, m = .ok a ∧ f a = .ok b := by
  cases m with
  | error e => cases h
  | ok a => exact ⟨a, rfl, h⟩

theorem collect_ok {α β : Type} {xs : List α} {f : α → Py (List β)} {r : List β}
    (h : collect xs f = .ok r) :
    (∀ x ∈ xs, ∃ a, f x = .ok a ∧ ∀ c ∈ a, c ∈ r) ∧
    (∀ c ∈ r, ∃ x ∈ xs, ∃ a, f x = .ok a ∧ c ∈ a) := by
  induction xs generalizing r with
  | nil => simp only [collect, Except.ok.injEq] at h; subst h; simp
  | cons x xs ih =>
    simp only [collect] at h
    split at h
    · cases h
    · rename_i a ha
      split at h
      · cases h
      · rename_i b hb
        cases h
        obtain ⟨h1, h2⟩ := ih hb
        constructor
        · intro y hy
          rcases List.mem_cons.1 hy with rfl | hy
          · exact ⟨a, ha, fun c hc => List.mem_append_left _ hc⟩
          · obtain ⟨a', h3, h4⟩ := h1 y hy
            exact ⟨a', h3, fun c hc => List.mem_append_right _ (h4 c hc)⟩
        · intro c hc
          rcases List.mem_append.1 hc with hc | hc
          · exact ⟨x, List.mem_cons_self, a, ha, hc⟩
          · obtain ⟨y, hy, a', h3, h4⟩ := h2 c hc
            exact ⟨y, List.mem_cons_of_mem _ hy, a', h3, h4⟩

/-- Every element emitted by a successful loop satisfies `P` iff all emissions do. -/
theorem collect_forall {α β : Type} {xs : List α} {f : α → Py (List β)} {r : List β}
    (h : collect xs f = .ok r) (P : β → Prop) :
    (∀ c ∈ r, P c) ↔ ∀ x ∈ xs, ∀ a, f x = .ok a → ∀ c ∈ a, P c := by
  obtain ⟨h1, h2⟩ := collect_ok h
  constructor
  · intro hr x hx a ha c hc
    obtain ⟨a', ha', hsub⟩ := h1 x hx
    rw [ha] at ha'; cases ha'
    exact hr c (hsub c hc)
  · intro hx c hc
    obtain ⟨x, hxs, a, ha, hca⟩ := h2 c hc
    exact hx x hxs a ha c hca

theorem mem_pairs {α : Type} {xs : List α} {a b : α} (h : (a, b) ∈ pairs xs) :
    a ∈ xs ∧ b ∈ xs := by
  induction xs with
  | nil => cases h
  | cons x xs ih =>
    simp only [pairs, List.mem_append, List.mem_map, Prod.mk.injEq] at h
    rcases h with ⟨y, hy, rfl, rfl⟩ | h
    · exact ⟨List.mem_cons_self, List.mem_cons_of_mem _ hy⟩
    · exact ⟨List.mem_cons_of_mem _ (ih h).1, List.mem_cons_of_mem _ (ih h).2⟩

theorem pairs_of_mem {α : Type} {xs : List α} {a b : α} (ha : a ∈ xs) (hb : b ∈ xs)
    (hne : a ≠ b) : (a, b) ∈ pairs xs ∨ (b, a) ∈ pairs xs := by
  induction xs with
  | nil => cases ha
  | cons x xs ih =>
    simp only [pairs, List.mem_append, List.mem_map, Prod.mk.injEq]
    rcases List.mem_cons.1 ha with rfl | _
    · rcases List.mem_cons.1 hb with rfl | hb
      · exact absurd rfl hne
      · exact .inl (.inl ⟨b, hb, rfl, rfl⟩)
    · rename_i ha'
      rcases List.mem_cons.1 hb with rfl | hb
      · exact .inr (.inl ⟨a, ha', rfl, rfl⟩)
      · rcases ih ha' hb with h | h
        · exact .inl (.inr h)
        · exact .inr (.inr h)

theorem pairs_ne {α : Type} {xs : List α} (hnd : xs.Nodup) {a b : α} (h : (a, b) ∈ pairs xs) :
    a ≠ b := by
  induction xs with
  | nil => cases h
  | cons x xs ih =>
    simp only [pairs, List.mem_append, List.mem_map, Prod.mk.injEq] at h
    rw [List.nodup_cons] at hnd
    rcases h with ⟨y, hy, rfl, rfl⟩ | h
    · rintro rfl; exact hnd.1 hy
    · exact ih hnd.2 h

namespace Dict
variable {K V : Type} [DecidableEq K]

theorem get?_set (d : Dict K V) (k k' : K) (v : V) :
    get? (set d k v) k' = if k' = k then some v else get? d k' := by
  induction d with
  | nil => simp only [set, get?]; split <;> split <;> simp_all
  | cons p d ih =>
    obtain ⟨a, b⟩ := p
    simp only [set]
    split
    · rename_i h; subst h
      simp only [get?]
      by_cases h : k' = a <;> simp [h, eq_comm]
    · simp only [get?, ih]
      by_cases h : a = k' <;> by_cases h2 : k' = k <;> simp_all

theorem get?_append (d e : Dict K V) (k : K) :
    get? (d ++ e) k = (get? d k).or (get? e k) := by
  induction d with
  | nil => simp [get?]
  | cons p d ih =>
    simp only [List.cons_append, get?, ih]
    split <;> simp

theorem get?_isSome (d : Dict K V) (k : K) : (get? d k).isSome ↔ k ∈ keys d := by
  induction d with
  | nil => simp [get?, keys]
  | cons p d ih =>
    simp only [get?, keys, List.map_cons, List.mem_cons]
    split
    · rename_i h; simp [h]
    · rename_i h
      rw [ih]; simp only [keys]
      constructor
      · exact .inr
      · rintro (rfl | h')
        · exact absurd rfl h
        · exact h'

theorem mem_of_get? {d : Dict K V} {k : K} {v : V} (h : get? d k = some v) : (k, v) ∈ d := by
  induction d with
  | nil => cases h
  | cons p d ih =>
    simp only [get?] at h
    split at h
    · rename_i hk; cases h; subst hk; exact List.mem_cons_self
    · exact List.mem_cons_of_mem _ (ih h)

theorem get?_of_mem {d : Dict K V} (hnd : (keys d).Nodup) {k : K} {v : V} (h : (k, v) ∈ d) :
    get? d k = some v := by
  induction d with
  | nil => cases h
  | cons p d ih =>
    simp only [keys, List.map_cons, List.nodup_cons] at hnd
    simp only [get?]
    rcases List.mem_cons.1 h with h | h
    · subst h; simp
    · split
      · rename_i hk; subst hk
        exact absurd (List.mem_map_of_mem (f := Prod.fst) h) hnd.1
      · exact ih hnd.2 h

theorem at!_ok {d : Dict K V} {k : K} {v : V} : at! d k = .ok v ↔ get? d k = some v := by
  unfold at!; split <;> simp_all

theorem keys_set (d : Dict K V) (k : K) (v : V) :
    keys (set d k v) = if k ∈ keys d then keys d else keys d ++ [k] := by
  induction d with
  | nil => simp [set, keys]
  | cons p d ih =>
    obtain ⟨a, b⟩ := p
    simp only [set]
    split
    · rename_i h; subst h; simp [keys]
    · rename_i h
      simp only [keys, List.map_cons] at ih ⊢
      rw [ih]
      by_cases h2 : k ∈ List.map Prod.fst d
      · simp [h2]
      · simp [h2, Ne.symm h]

theorem nodup_keys_set {d : Dict K V} (hnd : (keys d).Nodup) (k : K) (v : V) :
    (keys (set d k v)).Nodup := by
  rw [keys_set]; split
  · exact hnd
  · rename_i h
    rw [List.nodup_append]
    refine ⟨hnd, by simp, ?_⟩
    intro a ha b hb
    simp only [List.mem_singleton] at hb; subst hb
    rintro rfl; exact h ha

end Dict

end Verif
