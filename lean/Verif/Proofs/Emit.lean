import Verif.Proofs.Loops

/-!
# Loops that only store entries in a dictionary
-/

namespace Verif

variable {α K V : Type} [DecidableEq K]

theorem update_append (d e e' : Dict K V) :
    Dict.update d (e ++ e') = Dict.update (Dict.update d e) e' := by
  unfold Dict.update; rw [List.foldl_append]

/-- such a loop stores all entries produced by its iterations, in order -/
theorem loop_update {xs : List α} {f : Dict K V → α → Py (Dict K V)} {g : α → Py (Dict K V)}
    (hfg : ∀ d, ∀ x ∈ xs, f d x = (g x >>= fun e => .ok (Dict.update d e))) (d : Dict K V) :
    loop xs f d = (collect xs g >>= fun e => .ok (Dict.update d e)) := by
  induction xs generalizing d with
  | nil => rfl
  | cons x xs ih =>
    simp only [loop, collect]
    rw [hfg d x List.mem_cons_self]
    cases hg : g x with
    | error e => rfl
    | ok e =>
      change loop xs f (Dict.update d e) = _
      rw [ih (fun d y hy => hfg d y (List.mem_cons_of_mem _ hy))]
      cases collect xs g with
      | error e' => rfl
      | ok e' =>
        change Except.ok _ = Except.ok _
        rw [update_append]

theorem get?_update_notMem {d e : Dict K V} {k : K} (h : k ∉ Dict.keys e) :
    Dict.get? (Dict.update d e) k = Dict.get? d k := by
  induction e generalizing d with
  | nil => rfl
  | cons p e ih =>
    simp only [Dict.keys, List.map_cons, List.mem_cons, not_or] at h
    change Dict.get? (Dict.update (Dict.set d p.1 p.2) e) k = _
    rw [ih h.2, Dict.get?_set, if_neg h.1]

/-- the value stored last counts; if equal keys come with equal values, any of them -/
theorem get?_update {d e : Dict K V} (hc : ∀ k v v', (k, v) ∈ e → (k, v') ∈ e → v = v') (k : K)
    (v : V) :
    Dict.get? (Dict.update d e) k = some v ↔
      (k, v) ∈ e ∨ (k ∉ Dict.keys e ∧ Dict.get? d k = some v) := by
  by_cases hk : k ∈ Dict.keys e
  · have : ∀ w, (k, w) ∈ e → Dict.get? (Dict.update d e) k = some w := by
      clear hk
      induction e generalizing d with
      | nil => intro w hw; cases hw
      | cons p e ih =>
        intro w hw
        change Dict.get? (Dict.update (Dict.set d p.1 p.2) e) k = _
        by_cases hk' : k ∈ Dict.keys e
        · obtain ⟨⟨k', w'⟩, hm, rfl⟩ := List.mem_map.1 hk'
          rw [ih (fun k v v' h1 h2 => hc k v v' (List.mem_cons_of_mem _ h1)
            (List.mem_cons_of_mem _ h2)) w' hm]
          rw [hc _ w w' hw (List.mem_cons_of_mem _ hm)]
        · rw [get?_update_notMem hk', Dict.get?_set]
          rcases List.mem_cons.1 hw with rfl | hw
          · simp
          · exact absurd (List.mem_map_of_mem (f := Prod.fst) hw) hk'
    constructor
    · intro h
      obtain ⟨⟨k', w⟩, hm, rfl⟩ := List.mem_map.1 hk
      rw [this w hm] at h
      cases h
      exact .inl hm
    · rintro (h | ⟨h, _⟩)
      · exact this v h
      · exact absurd hk h
  · rw [get?_update_notMem hk]
    constructor
    · intro h; exact .inr ⟨hk, h⟩
    · rintro (h | ⟨_, h⟩)
      · exact absurd (List.mem_map_of_mem (f := Prod.fst) h) hk
      · exact h

/-- the same, for a dictionary built from nothing -/
theorem get?_build {e : Dict K V} (hc : ∀ k v v', (k, v) ∈ e → (k, v') ∈ e → v = v') (k : K)
    (v : V) : Dict.get? (Dict.update [] e) k = some v ↔ (k, v) ∈ e := by
  rw [get?_update hc]
  simp [Dict.get?]

theorem mem_update {d e : Dict K V} {p : K × V} (h : p ∈ Dict.update d e) : p ∈ d ∨ p ∈ e := by
  induction e generalizing d with
  | nil => exact .inl h
  | cons q e ih =>
    have hset : ∀ (d : Dict K V), p ∈ Dict.set d q.1 q.2 → p ∈ d ∨ p = q := by
      intro d hp
      induction d with
      | nil => simp only [Dict.set, List.mem_singleton] at hp; exact .inr hp
      | cons x d ih' =>
        obtain ⟨a, b⟩ := x
        simp only [Dict.set] at hp
        split at hp
        · rename_i hx
          rcases List.mem_cons.1 hp with hp | hp
          · right; rw [hp, hx]
          · exact .inl (List.mem_cons_of_mem _ hp)
        · rcases List.mem_cons.1 hp with hp | hp
          · exact .inl (hp ▸ List.mem_cons_self)
          · rcases ih' hp with h | h
            · exact .inl (List.mem_cons_of_mem _ h)
            · exact .inr h
    rcases ih (d := Dict.set d q.1 q.2) h with h | h
    · rcases hset d h with h | h
      · exact .inl h
      · exact .inr (h ▸ List.mem_cons_self)
    · exact .inr (List.mem_cons_of_mem _ h)

theorem keys_update_nodup {d e : Dict K V} (h : (Dict.keys d).Nodup) :
    (Dict.keys (Dict.update d e)).Nodup := by
  induction e generalizing d with
  | nil => exact h
  | cons p e ih => exact ih (Dict.nodup_keys_set h _ _)

/-- membership in the emissions of a loop all of whose iterations succeed -/
theorem mem_collect {α β : Type} {xs : List α} {f : α → Py (List β)} {r : List β}
    (h : collect xs f = .ok r) (c : β) : c ∈ r ↔ ∃ x ∈ xs, ∃ a, f x = .ok a ∧ c ∈ a := by
  obtain ⟨h1, h2⟩ := collect_ok h
  constructor
  · exact h2 c
  · rintro ⟨x, hx, a, ha, hc⟩
    obtain ⟨a', ha', hsub⟩ := h1 x hx
    rw [ha] at ha'; cases ha'
    exact hsub c hc

theorem collect_succeeds {α β : Type} {xs : List α} {f : α → Py (List β)}
    (h : ∀ x ∈ xs, ∃ a, f x = .ok a) : ∃ r, collect xs f = .ok r := by
  induction xs with
  | nil => exact ⟨[], rfl⟩
  | cons x xs ih =>
    obtain ⟨a, ha⟩ := h x List.mem_cons_self
    obtain ⟨r, hr⟩ := ih fun y hy => h y (List.mem_cons_of_mem _ hy)
    exact ⟨a ++ r, by simp only [collect, ha, hr]⟩

end Verif
