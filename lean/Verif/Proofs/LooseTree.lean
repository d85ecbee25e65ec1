import Verif.Proofs.SumTree

/-!
# Bounds of weighted sums when inequalities fail by little

Like `SumTree`, but each inequality belongs to a rule that may be broken by one. A proof goes through the
cases which train goes first, and through the cases which rule is the broken one.
-/

namespace Verif

/-- the inequalities with the numbers of their rules; `0` for those that always hold -/
inductive KeyTree where
  | none
  | node (x : TimeArc) (key : Nat) (l r : KeyTree)

/-- the `n`-th inequality, as in `ArcTree.get` -/
def KeyTree.get : Nat → KeyTree → Nat → Option (TimeArc × Nat)
  | _, .none, _ => Option.none
  | 0, _, _ => Option.none
  | f + 1, .node x k l r, n =>
    match Nat.beq n 0 with
    | true => some (x, k)
    | false => match Nat.beq (n % 2) 1 with
      | true => KeyTree.get f l (n / 2)
      | false => KeyTree.get f r (n / 2 - 1)

/-- all inequalities of the tree -/
def KeyTree.toList : KeyTree → List (TimeArc × Nat)
  | .none => []
  | .node x k l r => (x, k) :: (l.toList ++ r.toList)

theorem KeyTree.get_mem {x : TimeArc × Nat} : ∀ {f : Nat} {t : KeyTree} {n : Nat},
    KeyTree.get f t n = some x → x ∈ t.toList
  | f, .none, n, h => by
    cases f <;> simp [KeyTree.get] at h
  | 0, .node y k l r, n, h => by simp [KeyTree.get] at h
  | f + 1, .node y k l r, n, h => by
    rw [KeyTree.get] at h
    rw [toList]
    split at h
    · cases h
      exact List.mem_cons_self
    · split at h
      · exact List.mem_cons_of_mem _ (List.mem_append_left _ (get_mem h))
      · exact List.mem_cons_of_mem _ (List.mem_append_right _ (get_mem h))

/-- what is known of the broken rule: it is not one of the list; or which one it is -/
inductive Broken where
  | not (l : List Nat)
  | rule (n : Nat)

/-- by how much a rule may be broken -/
def Broken.by (m : Broken) (n : Nat) : Nat := match Nat.beq n 0 with
  | true => 0
  | false => match m with
    | .not l => match l.any (Nat.beq n) with
      | true => 0
      | false => 1
    | .rule k => match Nat.beq n k with
      | true => 1
      | false => 0

/-- A proof by cases, as in `SumTree`; in addition the two cases that a rule holds and that it is the
broken one. -/
inductive LooseTree where
  | leaf (l : List Nat)
  | cycle (n : Nat) (l : List Nat)
  | cases (l : List Nat) (v : Nat) (a b : LooseTree)
  | breaks (n : Nat) (a b : LooseTree)

/-- applies inequalities to the lower bounds -/
def applyKeyed (arcs : KeyTree) (m : Broken) (ctx : List Nat) : List Nat → TimeTree → Nat → Lifted
  | [], t, s => .to t s
  | i :: l, t, s => match arcs.get 20 i with
    | none => .fail
    | some (x, k) => match assumed ctx x.lit && !x.late with
      | false => .fail
      | true => match t.get 20 x.src with
        | none => .fail
        | some u => match Nat.ble (x.b + m.by k) (u + x.a) with
          | false => applyKeyed arcs m ctx l t s
          | true => match t.raise 20 x.dst (u + x.a - (x.b + m.by k)) with
            | .to t' g => applyKeyed arcs m ctx l t' (s + g)
            | .over => .over
            | .fail => .fail

/-- a cycle of inequalities -/
def closesKeyed (arcs : KeyTree) (m : Broken) (ctx : List Nat) (n : Nat) :
    List Nat → Nat → Nat → Nat → Bool
  | [], k, a, b => Nat.beq k n && Nat.blt b a
  | i :: l, k, a, b => match arcs.get 20 i with
    | none => false
    | some (x, q) => assumed ctx x.lit && !x.late && Nat.beq x.src k &&
        closesKeyed arcs m ctx n l x.dst (a + x.a) (b + (x.b + m.by q))

/-- checks a proof that the sum is at least `B`; `c` is the number of things to decide -/
def LooseTree.check (arcs : KeyTree) (B c : Nat) : Broken → List Nat → TimeTree → Nat → LooseTree → Bool
  | m, ctx, t, s, .leaf l => match applyKeyed arcs m ctx l t s with
    | .fail => false
    | .over => true
    | .to _ s' => Nat.ble B s'
  | m, ctx, _, _, .cycle n l => closesKeyed arcs m ctx n l n 0 0
  | m, ctx, t, s, .cases l v a b => match applyKeyed arcs m ctx l t s with
    | .fail => false
    | .over => true
    | .to t' s' => Nat.blt v c && check arcs B c m ((2 * v + 1) :: ctx) t' s' a &&
        check arcs B c m ((2 * v + 2) :: ctx) t' s' b
  | m, ctx, t, s, .breaks n a b => match m with
    | .rule _ => false
    | .not l => check arcs B c (.not (n :: l)) ctx t s a && check arcs B c (.rule n) ctx t s b

/-- no rule is said to be the broken one -/
def LooseTree.plain : LooseTree → Bool
  | .leaf _ => true
  | .cycle _ _ => true
  | .cases _ _ a b => a.plain && b.plain
  | .breaks _ _ _ => false

/-- the inequality holds up to `s` -/
def TimeArc.HoldsBy (δ : Nat → ℚ) (bound : ℚ) (x : TimeArc) (s : ℚ) : Prop :=
  δ x.src + x.a ≤ δ x.dst + x.b + (if x.late then bound else 0) + s

theorem Broken.by_le_one {m : Broken} {n : Nat} : m.by n ≤ 1 := by
  unfold Broken.by
  split
  · omega
  · split
    · split <;> omega
    · split <;> omega

section
variable {arcs : KeyTree} {B c : Nat} {δ : Nat → ℚ} {ℓ : Nat → Prop} {bound : ℚ} {sl : Nat → ℚ}
  (hA : ∀ x ∈ arcs.toList, (x.1.lit = 0 ∨ ℓ x.1.lit) → x.1.HoldsBy δ bound (sl x.2))
include hA

theorem applyKeyed_sound {m : Broken} (hm : ∀ n, sl n ≤ m.by n) {ctx : List Nat} (hc : ∀ c ∈ ctx, ℓ c) :
    ∀ {l : List Nat} {t : TimeTree} {s : Nat}, t.Below δ →
      applyKeyed arcs m ctx l t s ≠ .over ∧ ∀ t' s',
      applyKeyed arcs m ctx l t s = .to t' s' → t'.Below δ ∧ s + t.cost δ = s' + t'.cost δ
  | [], t, s, hb => by
    unfold applyKeyed
    refine ⟨by simp, fun t' s' h => ?_⟩
    cases h
    exact ⟨hb, rfl⟩
  | i :: l, t, s, hb => by
    unfold applyKeyed
    split
    · exact ⟨by simp, fun t' s' h => by cases h⟩
    rename_i x k hx
    split
    · exact ⟨by simp, fun t' s' h => by cases h⟩
    rename_i hx2
    split
    · exact ⟨by simp, fun t' s' h => by cases h⟩
    rename_i u hu
    split
    · exact applyKeyed_sound hm hc hb
    rename_i hle
    simp only [Bool.and_eq_true, Bool.not_eq_true'] at hx2
    obtain ⟨h1, h2⟩ := hx2
    have h4 := hA _ (KeyTree.get_mem hx) (assumed_or hc h1)
    unfold TimeArc.HoldsBy at h4
    rw [h2] at h4
    simp only [Bool.false_eq_true, if_false] at h4
    have h5 := TimeTree.get_le hb hu
    have h7 := hm k
    have h6 : ((u + x.a - (x.b + m.by k) : Nat) : ℚ) ≤ δ x.dst := by
      rw [Nat.cast_sub (Nat.le_of_ble_eq_true hle)]
      push_cast
      linarith
    split
    · rename_i t1 g hr
      obtain ⟨q1, q2⟩ := TimeTree.raise_to hb h6 hr
      obtain ⟨r1, r2⟩ := applyKeyed_sound hm hc q1 (l := l) (s := s + g)
      refine ⟨r1, fun t' s' h => ?_⟩
      obtain ⟨r3, r4⟩ := r2 t' s' h
      refine ⟨r3, ?_⟩
      rw [← r4, q2]
      push_cast
      ring
    · rename_i hr
      exact (TimeTree.raise_over hb h6 hr).elim
    · exact ⟨by simp, fun t' s' h => by cases h⟩

theorem closesKeyed_sound {m : Broken} (hm : ∀ n, sl n ≤ m.by n) {ctx : List Nat}
    (hc : ∀ c ∈ ctx, ℓ c) {n : Nat} : ∀ {l : List Nat} {k a b : Nat},
    δ n + a ≤ δ k + b → closesKeyed arcs m ctx n l k a b = true → False
  | [], k, a, b, h, hl => by
    simp only [closesKeyed, Bool.and_eq_true, Nat.beq_eq, Nat.blt_eq] at hl
    obtain ⟨rfl, hl⟩ := hl
    have : (b : ℚ) < a := by exact_mod_cast hl
    linarith
  | i :: l, k, a, b, h, hl => by
    unfold closesKeyed at hl
    split at hl
    · cases hl
    rename_i x q hx
    simp only [Bool.and_eq_true, Nat.beq_eq, Bool.not_eq_true'] at hl
    obtain ⟨⟨⟨h1, h2⟩, rfl⟩, h3⟩ := hl
    have h4 := hA _ (KeyTree.get_mem hx) (assumed_or hc h1)
    unfold TimeArc.HoldsBy at h4
    rw [h2] at h4
    simp only [Bool.false_eq_true, if_false] at h4
    have h7 := hm q
    refine closesKeyed_sound hm hc (l := l) ?_ h3
    push_cast
    linarith

theorem LooseTree.sound (hs1 : ∀ n, sl n ≤ 1) (hs0 : sl 0 ≤ 0)
    (hv : ∀ v < c, ℓ (2 * v + 1) ∨ ℓ (2 * v + 2)) : ∀ {T : LooseTree} {m : Broken} {ctx : List Nat}
    {t : TimeTree} {s : Nat},
    T.plain = true ∨ (∀ n n', 0 < sl n → 0 < sl n' → n = n') → (∀ n, sl n ≤ m.by n) →
      (∀ c ∈ ctx, ℓ c) → t.Below δ → T.check arcs B c m ctx t s = true → (B : ℚ) ≤ s + t.cost δ
  | .leaf l, m, ctx, t, s, _, hm, hc, hb, h => by
    unfold check at h
    obtain ⟨h1, h2⟩ := applyKeyed_sound hA hm hc hb (l := l) (s := s)
    split at h
    · cases h
    · rename_i e
      exact absurd e h1
    · rename_i t' s' e
      obtain ⟨q1, q2⟩ := h2 t' s' e
      have q3 := TimeTree.cost_nonneg q1
      have : (B : ℚ) ≤ s' := by exact_mod_cast Nat.le_of_ble_eq_true h
      linarith
  | .cycle n l, m, ctx, t, s, _, hm, hc, hb, h => by
    rw [check] at h
    exact (closesKeyed_sound hA hm hc (by simp) h).elim
  | .cases l v a b, m, ctx, t, s, ho, hm, hc, hb, h => by
    rw [check] at h
    have hoa : a.plain = true ∨ (∀ n n', 0 < sl n → 0 < sl n' → n = n') :=
      ho.imp (fun h => by rw [plain, Bool.and_eq_true] at h; exact h.1) id
    have hob : b.plain = true ∨ (∀ n n', 0 < sl n → 0 < sl n' → n = n') :=
      ho.imp (fun h => by rw [plain, Bool.and_eq_true] at h; exact h.2) id
    obtain ⟨h1, h2⟩ := applyKeyed_sound hA hm hc hb (l := l) (s := s)
    split at h
    · cases h
    · rename_i e
      exact absurd e h1
    · rename_i t' s' e
      obtain ⟨q1, q2⟩ := h2 t' s' e
      simp only [Bool.and_eq_true, Nat.blt_eq] at h
      obtain ⟨⟨g1, g2⟩, g3⟩ := h
      rw [q2]
      rcases hv v g1 with q | q
      · exact sound hs1 hs0 hv hoa hm (fun c hc' => by
          rcases List.mem_cons.1 hc' with rfl | hc'
          · exact q
          · exact hc c hc') q1 g2
      · exact sound hs1 hs0 hv hob hm (fun c hc' => by
          rcases List.mem_cons.1 hc' with rfl | hc'
          · exact q
          · exact hc c hc') q1 g3
  | .breaks n a b, .rule _, ctx, t, s, ho, hm, hc, hb, h => by
    rw [check] at h
    cases h
  | .breaks n a b, .not l, ctx, t, s, ho, hm, hc, hb, h => by
    rw [check] at h
    have ho := ho.resolve_left (by simp [plain])
    simp only [Bool.and_eq_true] at h
    by_cases hn : 0 < sl n
    · refine sound hs1 hs0 hv (.inr ho) (fun k => ?_) hc hb h.2
      unfold Broken.by
      split
      · rename_i e
        rw [Nat.eq_of_beq_eq_true e]
        simpa using hs0
      · dsimp only
        split
        · simpa using hs1 k
        · rename_i e
          rw [← Bool.not_eq_true, Nat.beq_eq] at e
          by_contra hk
          exact e (ho k n (by simpa using hk) hn)
    · refine sound hs1 hs0 hv (.inr ho) (fun k => ?_) hc hb h.1
      by_cases e : k = n
      · rw [e]
        exact (not_lt.1 hn).trans (Nat.cast_nonneg _)
      · have h3 : (Broken.not (n :: l)).by k = (Broken.not l).by k := by
          unfold Broken.by
          have : Nat.beq k n = false := by
            rw [← Bool.not_eq_true, Nat.beq_eq]
            exact e
          simp only [List.any_cons, this, Bool.false_or]
        rw [h3]
        exact hm k

end

/-- the check of the part of the proof to which `path` leads -/
def LooseTree.checkAt (arcs : KeyTree) (B c : Nat) :
    List Bool → Broken → List Nat → TimeTree → Nat → LooseTree → Bool
  | [], m, ctx, t, s, T => T.check arcs B c m ctx t s
  | _ :: _, m, ctx, t, s, .leaf l => (LooseTree.leaf l).check arcs B c m ctx t s
  | _ :: _, m, ctx, t, s, .cycle n l => (LooseTree.cycle n l).check arcs B c m ctx t s
  | y :: path, m, ctx, t, s, .cases l v a b => match applyKeyed arcs m ctx l t s with
    | .fail => false
    | .over => true
    | .to t' s' => Nat.blt v c && match y with
      | true => checkAt arcs B c path m ((2 * v + 1) :: ctx) t' s' a
      | false => checkAt arcs B c path m ((2 * v + 2) :: ctx) t' s' b
  | y :: path, m, ctx, t, s, .breaks n a b => match m with
    | .rule _ => false
    | .not l => match y with
      | true => checkAt arcs B c path (.not (n :: l)) ctx t s a
      | false => checkAt arcs B c path (.rule n) ctx t s b

/-- The parts together are the whole. -/
theorem LooseTree.join {arcs : KeyTree} {B c : Nat} : ∀ {path : List Bool} {m : Broken}
    {ctx : List Nat} {t : TimeTree} {s : Nat} {T : LooseTree},
    T.checkAt arcs B c (path ++ [true]) m ctx t s = true →
      T.checkAt arcs B c (path ++ [false]) m ctx t s = true →
      T.checkAt arcs B c path m ctx t s = true
  | [], m, ctx, t, s, .leaf l, h, _ => h
  | [], m, ctx, t, s, .cycle n l, h, _ => h
  | [], m, ctx, t, s, .cases l v a b, h1, h2 => by
    simp only [List.nil_append, checkAt] at h1 h2
    unfold checkAt check
    split
    · rename_i e
      rw [e] at h1
      cases h1
    · rfl
    · rename_i t' s' e
      rw [e] at h1 h2
      simp only [Bool.and_eq_true] at h1 h2 ⊢
      exact ⟨h1, h2.2⟩
  | [], m, ctx, t, s, .breaks n a b, h1, h2 => by
    simp only [List.nil_append, checkAt] at h1 h2
    unfold checkAt check
    cases m with
    | rule _ => cases h1
    | not l => simp only [Bool.and_eq_true]; exact ⟨h1, h2⟩
  | y :: path, m, ctx, t, s, .leaf l, h, _ => h
  | y :: path, m, ctx, t, s, .cycle n l, h, _ => h
  | y :: path, m, ctx, t, s, .cases l v a b, h1, h2 => by
    rw [List.cons_append, checkAt] at h1 h2
    rw [checkAt]
    split
    · rename_i e
      rw [e] at h1
      cases h1
    · rfl
    · rename_i t' s' e
      rw [e] at h1 h2
      simp only [Bool.and_eq_true] at h1 h2 ⊢
      refine ⟨h1.1, ?_⟩
      cases y
      · exact join h1.2 h2.2
      · exact join h1.2 h2.2
  | y :: path, .rule _, ctx, t, s, .breaks n a b, h1, h2 => by
    rw [List.cons_append, checkAt] at h1
    cases h1
  | y :: path, .not l, ctx, t, s, .breaks n a b, h1, h2 => by
    cases y
    · rw [List.cons_append, checkAt] at h1 h2
      rw [checkAt]
      exact join h1 h2
    · rw [List.cons_append, checkAt] at h1 h2
      rw [checkAt]
      exact join h1 h2

end Verif
