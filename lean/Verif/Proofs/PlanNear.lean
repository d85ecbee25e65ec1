import Verif.Proofs.PlanRules
import Verif.Proofs.PlanAgain

/-!
# Plans for coded sheets that break one rule

One train comes over a switch when another one leaves over it, at the same minute; all else is in order.
-/

namespace Verif

namespace CodedNet

variable {N : CodedNet} {good : List (Nat × Nat)} {td : Trains} {t1 : String}
  {delays : List (Int × ℚ)} {dmax : Int} {sp : Special} {P : Plan} {u v : Item}

/-- `a` and `b` are the items `u` and `v` -/
def isPair (u v a b : Item) : Bool :=
  Nat.beq a.train u.train && Nat.beq a.st u.st && Nat.beq b.train v.train && Nat.beq b.st v.st

/-- which train goes first; `u` goes before `v` -/
def goesBut (u v a b : Item) : Bool := goesFirst a b || isPair u v a b

/-- the train of `u` may come when the one of `v` leaves -/
def lapse (N : CodedNet) (u v : Item) (x : String) (t t' : Int) (p p' : String) : ℚ :=
  if (u.train : Int) = t ∧ (v.train : Int) = t' ∧ N.stName u.st = some p ∧ N.stName v.st = some p' ∧
    x = p' then 1 else 0

/-- the trains against each other, station by station, without `u` and `v` -/
def againstBut (n : Nat) (u v : Item) (l : List Item) : Bool :=
  (l.all fun a => Nat.blt a.st n) &&
  (List.range n).all fun s => (l.filter fun a => Nat.beq a.st s).all fun a =>
    (l.filter fun b => goesTo s b).all fun b =>
      againstOK a b || isPair u v a b || isPair u v b a

theorem againstBut_spec {n : Nat} {l : List Item} (h : againstBut n u v l = true) :
    ∀ a ∈ l, ∀ b ∈ l, againstOK a b = true ∨ isPair u v a b = true ∨ isPair u v b a = true := by
  intro a ha b hb
  simp only [againstBut, Bool.and_eq_true, List.all_eq_true, List.mem_filter, Nat.beq_eq,
    Nat.blt_eq, List.mem_range, Bool.or_eq_true] at h
  cases e : goesTo a.st b with
  | true =>
    rcases h.2 a.st (h.1 a ha) a ⟨ha, rfl⟩ b ⟨hb, e⟩ with (q | q) | q
    · exact .inl q
    · exact .inr (.inl q)
    · exact .inr (.inr q)
  | false =>
    left
    have q : meet a b = false ∧ crossing a b = false := by
      unfold goesTo at e
      unfold meet crossing
      cases hb : b.next with
      | none => exact ⟨by cases a.next <;> rfl, rfl⟩
      | some l =>
        rw [hb] at e
        have e : Nat.beq l.st a.st = false := e
        simp only [e]
        exact ⟨by cases a.next <;> simp only [e, Bool.and_false, Bool.false_and], rfl⟩
    unfold againstOK
    rw [q.1, q.2]
    rfl

/-- the train of `u` comes not later than the one of `v` leaves -/
def sameMinute (u v : Item) : Bool :=
  !goesFirst v u && !Nat.beq u.train v.train &&
  (!crossing u v || (match v.next with
    | some l => decide (u.dep + 1 ≤ v.dep + l.run)
    | none => true)) &&
  (match u.next with
  | some l => decide (u.dep + l.run ≤ v.dep)
  | none => true)

theorem lapse_nonneg (x : String) (t t' : Int) (p p' : String) : 0 ≤ lapse N u v x t t' p p' := by
  unfold lapse
  split <;> norm_num

theorem goesBy_but (K : Planned N good td t1 delays dmax sp P) (hu : u ∈ items P) (hv : v ∈ items P)
    (hs : sameMinute u v = true) {n : Nat} (ha : againstBut n u v (items P) = true) :
    GoesBy N P (goesBut u v) (lapse N u v) := by
  have ha := againstBut_spec ha
  have hpair : ∀ a ∈ items P, ∀ b ∈ items P, isPair u v a b = true → a = u ∧ b = v := by
    intro a h1 b h2 h
    unfold isPair at h
    simp only [Bool.and_eq_true, Nat.beq_eq] at h
    exact ⟨K.item_unique h1 hu h.1.1.1 h.1.1.2, K.item_unique h2 hv h.1.2 h.2⟩
  unfold sameMinute at hs
  simp only [Bool.and_eq_true, Bool.not_eq_true'] at hs
  obtain ⟨⟨⟨s3, s4⟩, s5⟩, s6⟩ := hs
  have huv : u.train ≠ v.train := by
    rw [← Bool.not_eq_true, Nat.beq_eq] at s4
    exact s4
  have hgo : isPair u v u v = true := by
    unfold isPair
    simp
  constructor
  · intro a h1 b h2 h
    unfold goesBut at h ⊢
    rw [Bool.or_eq_true] at h
    rw [← Bool.not_eq_true, Bool.or_eq_true]
    rintro (q | q)
    · rcases h with h | h
      · rw [goesFirst_asymm h] at q
        cases q
      · obtain ⟨rfl, rfl⟩ := hpair a h1 b h2 h
        rw [s3] at q
        cases q
    · obtain ⟨rfl, rfl⟩ := hpair b h2 a h1 q
      rcases h with h | h
      · rw [s3] at h
        cases h
      · exact huv (congrArg Item.train (hpair _ h1 _ h2 h).2)
  · intro a h1 b h2 m m' hn hp l l' hl hl'
    rcases ha a h1 b h2 with hag | h | h
    · unfold againstOK at hag
      rw [m] at hag
      simp only [Bool.true_or, Bool.not_true, Bool.false_or, hp, Bool.or_false, Bool.or_eq_true,
        Nat.beq_eq, hn, false_or] at hag
      unfold goesBut
      rw [Bool.or_eq_true, Bool.or_eq_true]
      exact (goes_one hn hag).imp (fun h => ⟨.inl h, goesFirst_meets h m hl⟩)
        (fun h => ⟨.inl h, goesFirst_meets h m' hl'⟩)
    · obtain ⟨rfl, rfl⟩ := hpair a h1 b h2 h
      rw [hl] at s6
      simp only [decide_eq_true_eq] at s6
      unfold goesBut
      rw [h, Bool.or_true]
      exact .inl ⟨rfl, s6⟩
    · obtain ⟨rfl, rfl⟩ := hpair b h2 a h1 h
      rw [hl'] at s6
      simp only [decide_eq_true_eq] at s6
      unfold goesBut
      rw [h, Bool.or_true]
      exact .inr ⟨rfl, s6⟩
  · intro a h1 b h2 m hn hp l x p hl hx hp'
    have e1 := lapse_nonneg (N := N) (u := u) (v := v) x a.train b.train x p
    have e2 := lapse_nonneg (N := N) (u := u) (v := v) x b.train a.train p x
    unfold goesBut
    rw [Bool.or_eq_true, Bool.or_eq_true]
    rcases ha a h1 b h2 with hag | h | h
    · unfold againstOK at hag
      rw [m] at hag
      simp only [Bool.or_true, Bool.not_true, Bool.false_or, hp, Bool.or_false, Bool.or_eq_true,
        Nat.beq_eq, hn, false_or] at hag
      refine (goes_one hn hag).imp (fun h => ⟨.inl h, ?_⟩) (fun h => ⟨.inl h, ?_⟩)
      · have : (a.dep : ℚ) + 1 ≤ b.dep + l.run := by exact_mod_cast (goesFirst_crosses m hl).1 h
        linarith
      · have : (b.dep : ℚ) + l.run + 1 ≤ a.dep := by exact_mod_cast (goesFirst_crosses m hl).2 h
        linarith
    · obtain ⟨rfl, rfl⟩ := hpair a h1 b h2 h
      rw [m, hl] at s5
      simp only [Bool.not_true, Bool.false_or, decide_eq_true_eq] at s5
      have : (a.dep : ℚ) + 1 ≤ b.dep + l.run := by exact_mod_cast s5
      exact .inl ⟨.inr h, by linarith⟩
    · obtain ⟨rfl, rfl⟩ := hpair b h2 a h1 h
      rw [hl] at s6
      simp only [decide_eq_true_eq] at s6
      have : (b.dep : ℚ) + l.run ≤ a.dep := by exact_mod_cast s6
      refine .inr ⟨.inr h, ?_⟩
      unfold lapse
      rw [if_pos ⟨rfl, rfl, hp', hx, rfl⟩]
      linarith

end CodedNet

end Verif
