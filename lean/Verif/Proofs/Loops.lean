import Verif.Py

/-!
# Loops and comprehensions
-/

namespace Verif

theorem mapPy_forall₂ {α β : Type} {f : α → Py β} {xs : List α} {ys : List β}
    (h : mapPy f xs = .ok ys) : List.Forall₂ (fun x y => f x = .ok y) xs ys := by
  induction xs generalizing ys with
  | nil => simp only [mapPy, Except.ok.injEq] at h; subst h; exact .nil
  | cons x xs ih =>
    simp only [mapPy] at h
    split at h
    · cases h
    · rename_i a ha
      split at h
      · cases h
      · rename_i b hb
        cases h
        exact .cons ha (ih hb)

theorem forall₂_left {α β : Type} {R : α → β → Prop} {xs : List α} {ys : List β}
    (h : List.Forall₂ R xs ys) {x : α} (hx : x ∈ xs) : ∃ y ∈ ys, R x y := by
  induction h with
  | nil => cases hx
  | cons h1 _ ih =>
    rcases List.mem_cons.1 hx with rfl | hx
    · exact ⟨_, List.mem_cons_self, h1⟩
    · obtain ⟨y, hy, h2⟩ := ih hx
      exact ⟨y, List.mem_cons_of_mem _ hy, h2⟩

theorem forall₂_right {α β : Type} {R : α → β → Prop} {xs : List α} {ys : List β}
    (h : List.Forall₂ R xs ys) {y : β} (hy : y ∈ ys) : ∃ x ∈ xs, R x y := by
  induction h with
  | nil => cases hy
  | cons h1 _ ih =>
    rcases List.mem_cons.1 hy with rfl | hy
    · exact ⟨_, List.mem_cons_self, h1⟩
    · obtain ⟨x, hx, h2⟩ := ih hy
      exact ⟨x, List.mem_cons_of_mem _ hx, h2⟩

theorem mapPy_of {α β : Type} {f : α → Py β} {g : α → β} {xs : List α}
    (h : ∀ x ∈ xs, f x = .ok (g x)) : mapPy f xs = .ok (xs.map g) := by
  induction xs with
  | nil => rfl
  | cons x xs ih =>
    simp only [mapPy, h x List.mem_cons_self, ih fun z hz => h z (List.mem_cons_of_mem _ hz),
      List.map_cons]

theorem loop_append {α σ : Type} (xs ys : List α) (f : σ → α → Py σ) (s : σ) :
    loop (xs ++ ys) f s = (loop xs f s >>= loop ys f) := by
  induction xs generalizing s with
  | nil => rfl
  | cons x xs ih =>
    simp only [List.cons_append, loop]
    cases f s x with
    | error e => rfl
    | ok s' => exact ih s'

theorem loop_inv {α σ : Type} {xs : List α} {f : σ → α → Py σ} {s s' : σ}
    (h : loop xs f s = .ok s') (P : σ → Prop) (h0 : P s)
    (hstep : ∀ x ∈ xs, ∀ t t', P t → f t x = .ok t' → P t') : P s' := by
  induction xs generalizing s with
  | nil => simp only [loop, Except.ok.injEq] at h; subst h; exact h0
  | cons x xs ih =>
    simp only [loop] at h
    split at h
    · cases h
    · rename_i t ht
      exact ih h (hstep x List.mem_cons_self s t h0 ht)
        (fun y hy => hstep y (List.mem_cons_of_mem _ hy))

/-- if one iteration establishes `Q x` and later ones keep it, it holds at the end -/
theorem loop_each {α σ : Type} {xs : List α} {f : σ → α → Py σ} {s s' : σ}
    (h : loop xs f s = .ok s') (Q : α → σ → Prop)
    (hest : ∀ x ∈ xs, ∀ t t', f t x = .ok t' → Q x t')
    (hkeep : ∀ x ∈ xs, ∀ z ∈ xs, ∀ t t', Q x t → f t z = .ok t' → Q x t') :
    ∀ x ∈ xs, Q x s' := by
  induction xs generalizing s with
  | nil => simp
  | cons x xs ih =>
    simp only [loop] at h
    split at h
    · cases h
    · rename_i t ht
      intro z hz
      rcases List.mem_cons.1 hz with rfl | hz
      · exact loop_inv h (Q z) (hest z List.mem_cons_self s t ht)
          (fun w hw a b ha hb =>
            hkeep z List.mem_cons_self w (List.mem_cons_of_mem _ hw) a b ha hb)
      · exact ih h (fun w hw => hest w (List.mem_cons_of_mem _ hw))
          (fun w hw z hz => hkeep w (List.mem_cons_of_mem _ hw) z (List.mem_cons_of_mem _ hz)) z hz

end Verif
