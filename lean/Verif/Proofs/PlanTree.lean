import Verif.Proofs.PlanBound

/-!
# Bounds by cases

That every solution has a train later than `D` minutes, shown by going through the cases which train
goes first. In each case there is a cycle of inequalities between departures.
-/

namespace Verif

/-- why an inequality holds: earliest departure; latest departure; run; trains one after the other;
a track is free before a train comes; a train leaves over switches before another one comes;
the other way round; a train leaves over switches before another one leaves; rolling stock is handed
over -/
inductive Why where
  | low | late | run | follow | track | leave | come | depart | stock

/-- An inequality between two times: the `src`-th time plus `a` is at most the `dst`-th plus `b`, plus
the bound of the delays if `late`. It holds in the case `lit`; always, if that is `0`.
`why` is the reason. -/
structure TimeArc where
  why : Why
  lit : Nat
  src : Nat
  dst : Nat
  a : Nat
  b : Nat
  late : Bool

/-- the inequalities, in a binary tree, the first bit of the number first -/
inductive ArcTree where
  | none
  | node (x : TimeArc) (l r : ArcTree)

/-- the `n`-th inequality: `0` at the root, `2 n + 1` to the left and `2 n + 2` to the right; the
number of steps is bounded by the first argument -/
def ArcTree.get : Nat → ArcTree → Nat → Option TimeArc
  | _, .none, _ => Option.none
  | 0, _, _ => Option.none
  | f + 1, .node x l r, n =>
    match Nat.beq n 0 with
    | true => some x
    | false => match Nat.beq (n % 2) 1 with
      | true => ArcTree.get f l (n / 2)
      | false => ArcTree.get f r (n / 2 - 1)

/-- all inequalities of the tree -/
def ArcTree.toList : ArcTree → List TimeArc
  | .none => []
  | .node x l r => x :: (l.toList ++ r.toList)

theorem ArcTree.get_mem {x : TimeArc} : ∀ {f : Nat} {t : ArcTree} {n : Nat},
    ArcTree.get f t n = some x → x ∈ t.toList
  | f, .none, n, h => by
    cases f <;> simp [ArcTree.get] at h
  | 0, .node y l r, n, h => by simp [ArcTree.get] at h
  | f + 1, .node y l r, n, h => by
    rw [ArcTree.get] at h
    rw [toList]
    split at h
    · cases h
      exact List.mem_cons_self
    · split at h
      · exact List.mem_cons_of_mem _ (List.mem_append_left _ (get_mem h))
      · exact List.mem_cons_of_mem _ (List.mem_append_right _ (get_mem h))

/-- A proof by cases: a cycle of inequalities, or the two cases `2 v + 1` and `2 v + 2`. -/
inductive CaseTree where
  | cycle (l : List Nat)
  | cases (v : Nat) (l r : CaseTree)

/-- the case is among those that are assumed -/
def assumed (ctx : List Nat) (c : Nat) : Bool := match Nat.beq c 0 with
  | true => true
  | false => ctx.any (Nat.beq c)

/-- Follows the inequalities from `cur` back to `start`; the sums of `a` and `b`, how often the bound of
the delays is added. At the end the bound is not less than `D`, or there is a contradiction. -/
def walk (arcs : ArcTree) (D : Nat) (ctx : List Nat) (start : Nat) :
    List Nat → Nat → Nat → Nat → Nat → Bool
  | [], cur, a, b, n => Nat.beq cur start &&
      (match Nat.beq n 0 with
      | true => Nat.blt b a
      | false => Nat.ble (b + D * n) a)
  | i :: l, cur, a, b, n => match arcs.get 20 i with
    | none => false
    | some x => assumed ctx x.lit && Nat.beq x.src cur &&
        walk arcs D ctx start l x.dst (a + x.a) (b + x.b) (match x.late with
          | true => n + 1
          | false => n)

/-- checks a proof by cases; `m` is the number of things to decide -/
def CaseTree.check (arcs : ArcTree) (D m : Nat) : List Nat → CaseTree → Bool
  | ctx, .cycle l => match l with
    | [] => false
    | i :: _ => match arcs.get 20 i with
      | some x => walk arcs D ctx x.src l x.src 0 0 0
      | none => false
  | ctx, .cases v l r => Nat.blt v m && check arcs D m ((2 * v + 1) :: ctx) l &&
      check arcs D m ((2 * v + 2) :: ctx) r

/-- the inequality holds -/
def TimeArc.Holds (δ : Nat → ℚ) (bound : ℚ) (x : TimeArc) : Prop :=
  δ x.src + x.a ≤ δ x.dst + x.b + (if x.late then bound else 0)

theorem walk_sound {arcs : ArcTree} {D : Nat} {ctx : List Nat} {δ : Nat → ℚ} {ℓ : Nat → Prop}
    {bound : ℚ} (hA : ∀ x ∈ arcs.toList, (x.lit = 0 ∨ ℓ x.lit) → x.Holds δ bound)
    (hc : ∀ c ∈ ctx, ℓ c) {start : Nat} : ∀ {l : List Nat} {cur a b n : Nat},
      walk arcs D ctx start l cur a b n = true → δ start + a ≤ δ cur + b + n * bound →
      (D : ℚ) ≤ bound
  | [], cur, a, b, n, h, hi => by
    simp only [walk, Bool.and_eq_true, Nat.beq_eq] at h
    obtain ⟨rfl, h⟩ := h
    cases hn : Nat.beq n 0 with
    | true =>
      rw [hn] at h
      simp only [Nat.blt_eq] at h
      rw [Nat.beq_eq] at hn
      subst hn
      have : (b : ℚ) < a := by exact_mod_cast h
      push_cast at hi
      linarith
    | false =>
      rw [hn] at h
      simp only [Nat.ble_eq] at h
      have hn' : n ≠ 0 := by
        rintro rfl
        cases hn
      have h1 : (b : ℚ) + D * n ≤ a := by exact_mod_cast h
      have h2 : (D : ℚ) * n ≤ bound * n := by linarith
      have h3 : (0 : ℚ) < n := by exact_mod_cast Nat.pos_of_ne_zero hn'
      exact le_of_mul_le_mul_right h2 h3
  | i :: l, cur, a, b, n, h, hi => by
    rw [walk] at h
    split at h
    · cases h
    · rename_i x hx
      simp only [Bool.and_eq_true, Nat.beq_eq] at h
      obtain ⟨⟨h1, rfl⟩, h3⟩ := h
      have hl : x.lit = 0 ∨ ℓ x.lit := by
        unfold assumed at h1
        split at h1
        · rename_i e
          exact .inl (Nat.eq_of_beq_eq_true e)
        · obtain ⟨y, hy, e⟩ := List.any_eq_true.1 h1
          rw [Nat.eq_of_beq_eq_true e]
          exact .inr (hc _ hy)
      have h4 := hA x (ArcTree.get_mem hx) hl
      unfold TimeArc.Holds at h4
      refine walk_sound hA hc h3 ?_
      cases hxl : x.late with
      | true =>
        rw [hxl] at h4
        simp only [if_true] at h4
        push_cast
        linarith
      | false =>
        rw [hxl] at h4
        simp only [Bool.false_eq_true, if_false] at h4
        push_cast
        linarith

theorem CaseTree.sound {arcs : ArcTree} {D m : Nat} {δ : Nat → ℚ} {ℓ : Nat → Prop} {bound : ℚ}
    (hA : ∀ x ∈ arcs.toList, (x.lit = 0 ∨ ℓ x.lit) → x.Holds δ bound)
    (hv : ∀ v < m, ℓ (2 * v + 1) ∨ ℓ (2 * v + 2)) : ∀ {t : CaseTree} {ctx : List Nat},
      (∀ c ∈ ctx, ℓ c) → t.check arcs D m ctx = true → (D : ℚ) ≤ bound
  | .cycle l, ctx, hc, h => by
    unfold check at h
    split at h
    · cases h
    · split at h
      · exact walk_sound hA hc h (by simp)
      · cases h
  | .cases v l r, ctx, hc, h => by
    rw [check] at h
    simp only [Bool.and_eq_true, Nat.blt_eq] at h
    obtain ⟨⟨h1, h2⟩, h3⟩ := h
    rcases hv v h1 with q | q
    · exact sound hA hv (fun c hc' => by
        rcases List.mem_cons.1 hc' with rfl | hc'
        · exact q
        · exact hc c hc') h2
    · exact sound hA hv (fun c hc' => by
        rcases List.mem_cons.1 hc' with rfl | hc'
        · exact q
        · exact hc c hc') h3

end Verif
