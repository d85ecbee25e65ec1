import Verif.Proofs.PlanTree

/-!
# Bounds of weighted sums by cases

That a weighted sum of delays is not less than some number, shown by going through the cases which
train goes first. On the way times are raised by the inequalities that hold in the case.
-/

namespace Verif

/-- Times in a binary tree, numbered as in `ArcTree`: a lower bound, the weight in the sum, and an upper
bound. -/
inductive TimeTree where
  | none
  | node (lb w lim : Nat) (l r : TimeTree)

/-- the lower bound of the `n`-th time -/
def TimeTree.get : Nat → TimeTree → Nat → Option Nat
  | _, .none, _ => Option.none
  | 0, _, _ => Option.none
  | f + 1, .node lb _ _ l r, n =>
    match Nat.beq n 0 with
    | true => some lb
    | false => match Nat.beq (n % 2) 1 with
      | true => TimeTree.get f l (n / 2)
      | false => TimeTree.get f r (n / 2 - 1)

/-- the outcome of raising times: not possible; above an upper bound; new times and the growth of the
sum -/
inductive Lifted where
  | fail
  | over
  | to (t : TimeTree) (gain : Nat)

/-- raises the lower bound of the `n`-th time to `v` -/
def TimeTree.raise : Nat → TimeTree → Nat → Nat → Lifted
  | _, .none, _, _ => .fail
  | 0, _, _, _ => .fail
  | f + 1, .node lb w lim l r, n, v =>
    match Nat.beq n 0 with
    | true => match Nat.blt lim v with
      | true => .over
      | false => match Nat.blt lb v with
        | true => .to (.node v w lim l r) (w * (v - lb))
        | false => .to (.node lb w lim l r) 0
    | false => match Nat.beq (n % 2) 1 with
      | true => match TimeTree.raise f l (n / 2) v with
        | .to l' g => .to (.node lb w lim l' r) g
        | .over => .over
        | .fail => .fail
      | false => match TimeTree.raise f r (n / 2 - 1) v with
        | .to r' g => .to (.node lb w lim l r') g
        | .over => .over
        | .fail => .fail

/-- the bounds hold for the times `δ` -/
def TimeTree.Below : (Nat → ℚ) → TimeTree → Prop
  | _, .none => True
  | δ, .node lb _ lim l r => (lb : ℚ) ≤ δ 0 ∧ δ 0 ≤ lim ∧ l.Below (fun n => δ (2 * n + 1)) ∧
      r.Below (fun n => δ (2 * n + 2))

/-- the weighted sum of what the times are above the lower bounds -/
def TimeTree.cost : (Nat → ℚ) → TimeTree → ℚ
  | _, .none => 0
  | δ, .node lb w _ l r => w * (δ 0 - lb) + l.cost (fun n => δ (2 * n + 1)) +
      r.cost (fun n => δ (2 * n + 2))

theorem TimeTree.cost_nonneg : ∀ {t : TimeTree} {δ : Nat → ℚ}, t.Below δ → 0 ≤ t.cost δ
  | .none, _, _ => le_refl _
  | .node lb w lim l r, δ, ⟨h1, _, h3, h4⟩ => by
    have := cost_nonneg h3
    have := cost_nonneg h4
    have : 0 ≤ (w : ℚ) * (δ 0 - lb) := mul_nonneg (Nat.cast_nonneg _) (by linarith)
    unfold cost
    linarith

theorem odd_half {n : Nat} (h : Nat.beq (n % 2) 1 = true) : 2 * (n / 2) + 1 = n := by
  rw [Nat.beq_eq] at h
  omega

theorem even_half {n : Nat} (h : Nat.beq (n % 2) 1 = false) (h0 : Nat.beq n 0 = false) :
    2 * (n / 2 - 1) + 2 = n := by
  rw [← Bool.not_eq_true, Nat.beq_eq] at h h0
  omega

theorem TimeTree.get_le : ∀ {f : Nat} {t : TimeTree} {n v : Nat} {δ : Nat → ℚ}, t.Below δ →
    TimeTree.get f t n = some v → (v : ℚ) ≤ δ n
  | f, .none, n, v, δ, _, h => by cases f <;> simp [TimeTree.get] at h
  | 0, .node lb w lim l r, n, v, δ, _, h => by simp [TimeTree.get] at h
  | f + 1, .node lb w lim l r, n, v, δ, hb, h => by
    rw [TimeTree.get] at h
    obtain ⟨h1, h2, h3, h4⟩ := hb
    split at h
    · rename_i e
      cases h
      rw [Nat.eq_of_beq_eq_true e]
      exact h1
    · rename_i e0
      split at h
      · rename_i e
        have := get_le h3 h
        simp only [odd_half e] at this
        exact this
      · rename_i e
        have := get_le h4 h
        simp only [even_half e e0] at this
        exact this

theorem TimeTree.raise_over : ∀ {f : Nat} {t : TimeTree} {n v : Nat} {δ : Nat → ℚ}, t.Below δ →
    (v : ℚ) ≤ δ n → TimeTree.raise f t n v = .over → False
  | f, .none, n, v, δ, _, _, h => by cases f <;> simp [TimeTree.raise] at h
  | 0, .node lb w lim l r, n, v, δ, _, _, h => by simp [TimeTree.raise] at h
  | f + 1, .node lb w lim l r, n, v, δ, hb, hv, h => by
    rw [TimeTree.raise] at h
    obtain ⟨h1, h2, h3, h4⟩ := hb
    split at h
    · rename_i e
      rw [Nat.eq_of_beq_eq_true e] at hv
      split at h
      · rename_i e'
        rw [Nat.blt_eq] at e'
        have : (lim : ℚ) < v := by exact_mod_cast e'
        linarith
      · split at h <;> cases h
    · rename_i e0
      split at h
      · rename_i e
        split at h
        · cases h
        · rename_i hr
          exact raise_over h3 (by simp only [odd_half e]; exact hv) hr
        · cases h
      · rename_i e
        split at h
        · cases h
        · rename_i hr
          exact raise_over h4 (by simp only [even_half e e0]; exact hv) hr
        · cases h

theorem TimeTree.raise_to : ∀ {f : Nat} {t t' : TimeTree} {n v g : Nat} {δ : Nat → ℚ}, t.Below δ →
    (v : ℚ) ≤ δ n → TimeTree.raise f t n v = .to t' g → t'.Below δ ∧ t.cost δ = g + t'.cost δ
  | f, .none, t', n, v, g, δ, _, _, h => by cases f <;> simp [TimeTree.raise] at h
  | 0, .node lb w lim l r, t', n, v, g, δ, _, _, h => by simp [TimeTree.raise] at h
  | f + 1, .node lb w lim l r, t', n, v, g, δ, hb, hv, h => by
    rw [TimeTree.raise] at h
    obtain ⟨h1, h2, h3, h4⟩ := hb
    split at h
    · rename_i e
      rw [Nat.eq_of_beq_eq_true e] at hv
      split at h
      · cases h
      · split at h
        · rename_i e'
          rw [Nat.blt_eq] at e'
          cases h
          refine ⟨⟨hv, h2, h3, h4⟩, ?_⟩
          unfold cost
          rw [Nat.cast_mul, Nat.cast_sub e'.le]
          ring
        · cases h
          exact ⟨⟨h1, h2, h3, h4⟩, by simp⟩
    · rename_i e0
      split at h
      · rename_i e
        split at h
        · rename_i l' g' hr
          cases h
          obtain ⟨q1, q2⟩ := raise_to h3 (by simp only [odd_half e]; exact hv) hr
          refine ⟨⟨h1, h2, q1, h4⟩, ?_⟩
          unfold cost
          rw [q2]
          ring
        · cases h
        · cases h
      · rename_i e
        split at h
        · rename_i r' g' hr
          cases h
          obtain ⟨q1, q2⟩ := raise_to h4 (by simp only [even_half e e0]; exact hv) hr
          refine ⟨⟨h1, h2, h3, q1⟩, ?_⟩
          unfold cost
          rw [q2]
          ring
        · cases h
        · cases h

/-- A proof by cases. First some inequalities are applied; then the sum is large enough or a time is
above its upper bound, or there are the two cases `2 v + 1` and `2 v + 2`. Or some inequalities, from a
time back to it, contradict each other. -/
inductive SumTree where
  | leaf (l : List Nat)
  | cycle (n : Nat) (l : List Nat)
  | cases (l : List Nat) (v : Nat) (a b : SumTree)

/-- applies inequalities to the lower bounds; `s` is the growth of the sum -/
def applyArcs (arcs : ArcTree) (ctx : List Nat) : List Nat → TimeTree → Nat → Lifted
  | [], t, s => .to t s
  | i :: l, t, s => match arcs.get 20 i with
    | none => .fail
    | some x => match assumed ctx x.lit && !x.late with
      | false => .fail
      | true => match t.get 20 x.src with
        | none => .fail
        | some u => match Nat.ble x.b (u + x.a) with
          | false => applyArcs arcs ctx l t s
          | true => match t.raise 20 x.dst (u + x.a - x.b) with
            | .to t' g => applyArcs arcs ctx l t' (s + g)
            | .over => .over
            | .fail => .fail

/-- the inequalities lead from time `n`, where one is at `k`, back to it, and `a` is then more than `b` -/
def closes (arcs : ArcTree) (ctx : List Nat) (n : Nat) : List Nat → Nat → Nat → Nat → Bool
  | [], k, a, b => Nat.beq k n && Nat.blt b a
  | i :: l, k, a, b => match arcs.get 20 i with
    | none => false
    | some x => assumed ctx x.lit && !x.late && Nat.beq x.src k &&
        closes arcs ctx n l x.dst (a + x.a) (b + x.b)

/-- checks a proof by cases that the sum is at least `B`; `m` is the number of things to decide -/
def SumTree.check (arcs : ArcTree) (B m : Nat) : List Nat → TimeTree → Nat → SumTree → Bool
  | ctx, t, s, .leaf l => match applyArcs arcs ctx l t s with
    | .fail => false
    | .over => true
    | .to _ s' => Nat.ble B s'
  | ctx, _, _, .cycle n l => closes arcs ctx n l n 0 0
  | ctx, t, s, .cases l v a b => match applyArcs arcs ctx l t s with
    | .fail => false
    | .over => true
    | .to t' s' => Nat.blt v m && check arcs B m ((2 * v + 1) :: ctx) t' s' a &&
        check arcs B m ((2 * v + 2) :: ctx) t' s' b

theorem assumed_or {ℓ : Nat → Prop} {ctx : List Nat} {n : Nat} (hc : ∀ c ∈ ctx, ℓ c)
    (h : assumed ctx n = true) : n = 0 ∨ ℓ n := by
  unfold assumed at h
  split at h
  · rename_i e
    exact .inl (Nat.eq_of_beq_eq_true e)
  · obtain ⟨y, hy, e⟩ := List.any_eq_true.1 h
    rw [Nat.eq_of_beq_eq_true e]
    exact .inr (hc _ hy)

section
variable {arcs : ArcTree} {B m : Nat} {δ : Nat → ℚ} {ℓ : Nat → Prop} {bound : ℚ}
  (hA : ∀ x ∈ arcs.toList, (x.lit = 0 ∨ ℓ x.lit) → x.Holds δ bound)
include hA

theorem applyArcs_sound {ctx : List Nat} (hc : ∀ c ∈ ctx, ℓ c) : ∀ {l : List Nat} {t : TimeTree}
    {s : Nat}, t.Below δ → applyArcs arcs ctx l t s ≠ .over ∧ ∀ t' s',
      applyArcs arcs ctx l t s = .to t' s' → t'.Below δ ∧ s + t.cost δ = s' + t'.cost δ
  | [], t, s, hb => by
    unfold applyArcs
    refine ⟨by simp, fun t' s' h => ?_⟩
    cases h
    exact ⟨hb, rfl⟩
  | i :: l, t, s, hb => by
    unfold applyArcs
    split
    · exact ⟨by simp, fun t' s' h => by cases h⟩
    rename_i x hx
    split
    · exact ⟨by simp, fun t' s' h => by cases h⟩
    rename_i hx2
    split
    · exact ⟨by simp, fun t' s' h => by cases h⟩
    rename_i u hu
    split
    · exact applyArcs_sound hc hb
    rename_i hle
    simp only [Bool.and_eq_true, Bool.not_eq_true'] at hx2
    obtain ⟨h1, h2⟩ := hx2
    have h4 := hA x (ArcTree.get_mem hx) (assumed_or hc h1)
    unfold TimeArc.Holds at h4
    rw [h2] at h4
    simp only [Bool.false_eq_true, if_false] at h4
    have h5 := TimeTree.get_le hb hu
    have h6 : ((u + x.a - x.b : Nat) : ℚ) ≤ δ x.dst := by
      rw [Nat.cast_sub (Nat.le_of_ble_eq_true hle)]
      push_cast
      linarith
    split
    · rename_i t1 g hr
      obtain ⟨q1, q2⟩ := TimeTree.raise_to hb h6 hr
      obtain ⟨r1, r2⟩ := applyArcs_sound hc q1 (l := l) (s := s + g)
      refine ⟨r1, fun t' s' h => ?_⟩
      obtain ⟨r3, r4⟩ := r2 t' s' h
      refine ⟨r3, ?_⟩
      rw [← r4, q2]
      push_cast
      ring
    · rename_i hr
      exact (TimeTree.raise_over hb h6 hr).elim
    · exact ⟨by simp, fun t' s' h => by cases h⟩

theorem closes_sound {ctx : List Nat} (hc : ∀ c ∈ ctx, ℓ c) {n : Nat} : ∀ {l : List Nat} {k a b : Nat},
    δ n + a ≤ δ k + b → closes arcs ctx n l k a b = true → False
  | [], k, a, b, h, hl => by
    simp only [closes, Bool.and_eq_true, Nat.beq_eq, Nat.blt_eq] at hl
    obtain ⟨rfl, hl⟩ := hl
    have : (b : ℚ) < a := by exact_mod_cast hl
    linarith
  | i :: l, k, a, b, h, hl => by
    unfold closes at hl
    split at hl
    · cases hl
    rename_i x hx
    simp only [Bool.and_eq_true, Nat.beq_eq, Bool.not_eq_true'] at hl
    obtain ⟨⟨⟨h1, h2⟩, rfl⟩, h3⟩ := hl
    have h4 := hA x (ArcTree.get_mem hx) (assumed_or hc h1)
    unfold TimeArc.Holds at h4
    rw [h2] at h4
    simp only [Bool.false_eq_true, if_false] at h4
    refine closes_sound hc (l := l) ?_ h3
    push_cast
    linarith

theorem SumTree.sound (hv : ∀ v < m, ℓ (2 * v + 1) ∨ ℓ (2 * v + 2)) : ∀ {T : SumTree} {ctx : List Nat}
    {t : TimeTree} {s : Nat}, (∀ c ∈ ctx, ℓ c) → t.Below δ → T.check arcs B m ctx t s = true →
      (B : ℚ) ≤ s + t.cost δ
  | .leaf l, ctx, t, s, hc, hb, h => by
    unfold check at h
    obtain ⟨h1, h2⟩ := applyArcs_sound hA hc hb (l := l) (s := s)
    split at h
    · cases h
    · rename_i e
      exact absurd e h1
    · rename_i t' s' e
      obtain ⟨q1, q2⟩ := h2 t' s' e
      have q3 := TimeTree.cost_nonneg q1
      have : (B : ℚ) ≤ s' := by exact_mod_cast Nat.le_of_ble_eq_true h
      linarith
  | .cycle n l, ctx, t, s, hc, hb, h => by
    rw [check] at h
    exact (closes_sound hA hc (by simp) h).elim
  | .cases l v a b, ctx, t, s, hc, hb, h => by
    rw [check] at h
    obtain ⟨h1, h2⟩ := applyArcs_sound hA hc hb (l := l) (s := s)
    split at h
    · cases h
    · rename_i e
      exact absurd e h1
    · rename_i t' s' e
      obtain ⟨q1, q2⟩ := h2 t' s' e
      simp only [Bool.and_eq_true, Nat.blt_eq] at h
      obtain ⟨⟨g1, g2⟩, g3⟩ := h
      rw [q2]
      rcases hv v g1 with q | q
      · exact sound hv (fun c hc' => by
          rcases List.mem_cons.1 hc' with rfl | hc'
          · exact q
          · exact hc c hc') q1 g2
      · exact sound hv (fun c hc' => by
          rcases List.mem_cons.1 hc' with rfl | hc'
          · exact q
          · exact hc c hc') q1 g3

end

/-- the check of the part of the proof to which `path` leads (`true`: the first case) -/
def SumTree.checkAt (arcs : ArcTree) (B m : Nat) :
    List Bool → List Nat → TimeTree → Nat → SumTree → Bool
  | [], ctx, t, s, T => T.check arcs B m ctx t s
  | _ :: _, ctx, t, s, .leaf l => (SumTree.leaf l).check arcs B m ctx t s
  | _ :: _, ctx, t, s, .cycle n l => (SumTree.cycle n l).check arcs B m ctx t s
  | y :: path, ctx, t, s, .cases l v a b => match applyArcs arcs ctx l t s with
    | .fail => false
    | .over => true
    | .to t' s' => Nat.blt v m && match y with
      | true => checkAt arcs B m path ((2 * v + 1) :: ctx) t' s' a
      | false => checkAt arcs B m path ((2 * v + 2) :: ctx) t' s' b

/-- The parts together are the whole. -/
theorem SumTree.join {arcs : ArcTree} {B m : Nat} : ∀ {path : List Bool} {ctx : List Nat} {t : TimeTree}
    {s : Nat} {T : SumTree}, T.checkAt arcs B m (path ++ [true]) ctx t s = true →
      T.checkAt arcs B m (path ++ [false]) ctx t s = true → T.checkAt arcs B m path ctx t s = true
  | [], ctx, t, s, .leaf l, h, _ => h
  | [], ctx, t, s, .cycle n l, h, _ => h
  | [], ctx, t, s, .cases l v a b, h1, h2 => by
    simp only [List.nil_append, checkAt] at h1 h2
    unfold checkAt check
    split
    · rename_i e
      rw [e] at h1
      cases h1
    · rfl
    · rename_i t' s' e
      rw [e] at h1 h2
      simp only [Bool.and_eq_true] at h1 h2 ⊢
      exact ⟨h1, h2.2⟩
  | y :: path, ctx, t, s, .leaf l, h, _ => h
  | y :: path, ctx, t, s, .cycle n l, h, _ => h
  | y :: path, ctx, t, s, .cases l v a b, h1, h2 => by
    rw [List.cons_append, checkAt] at h1 h2
    rw [checkAt]
    split
    · rename_i e
      rw [e] at h1
      cases h1
    · rfl
    · rename_i t' s' e
      rw [e] at h1 h2
      simp only [Bool.and_eq_true] at h1 h2 ⊢
      refine ⟨h1.1, ?_⟩
      cases y
      · exact join h1.2 h2.2
      · exact join h1.2 h2.2

/-- the times of the tree with their numbers -/
def TimeTree.toList : (Nat → Nat) → TimeTree → List (Nat × Nat × Nat × Nat)
  | _, .none => []
  | f, .node lb w lim l r => (f 0, lb, w, lim) ::
      (l.toList (fun n => f (2 * n + 1)) ++ r.toList (fun n => f (2 * n + 2)))

theorem TimeTree.cost_eq : ∀ {t : TimeTree} {f : Nat → Nat} {δ : Nat → ℚ},
    t.cost (fun n => δ (f n)) = ((t.toList f).map fun x => (x.2.2.1 : ℚ) * (δ x.1 - x.2.1)).sum
  | .none, f, δ => rfl
  | .node lb w lim l r, f, δ => by
    have h1 := cost_eq (t := l) (f := fun n => f (2 * n + 1)) (δ := δ)
    have h2 := cost_eq (t := r) (f := fun n => f (2 * n + 2)) (δ := δ)
    unfold cost toList
    rw [h1, h2]
    simp only [List.map_cons, List.map_append, List.sum_cons, List.sum_append]
    ring

theorem TimeTree.below_of : ∀ {t : TimeTree} {f : Nat → Nat} {δ : Nat → ℚ},
    (∀ x ∈ t.toList f, (x.2.1 : ℚ) ≤ δ x.1 ∧ δ x.1 ≤ x.2.2.2) → t.Below (fun n => δ (f n))
  | .none, f, δ, _ => trivial
  | .node lb w lim l r, f, δ, h => by
    unfold toList at h
    have h0 := h _ List.mem_cons_self
    exact ⟨h0.1, h0.2,
      below_of (f := fun n => f (2 * n + 1)) fun x hx =>
        h x (List.mem_cons_of_mem _ (List.mem_append_left _ hx)),
      below_of (f := fun n => f (2 * n + 2)) fun x hx =>
        h x (List.mem_cons_of_mem _ (List.mem_append_right _ hx))⟩

end Verif
