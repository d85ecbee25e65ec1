import Verif.Model.Sched
import Mathlib.Tactic.IntervalCases

/-!
# C37: clock differences
-/

namespace Verif

/-- the character of a decimal digit -/
def digitChar (a : Nat) : Char := Char.ofNat (48 + a)

/-- one or two decimal digits and their value -/
def Digits (l : List Char) (n : Nat) : Prop :=
  (∃ a < 10, l = [digitChar a] ∧ n = a) ∨
  (∃ a < 10, ∃ b < 10, l = [digitChar a, digitChar b] ∧ n = 10 * a + b)

/-- the text is a time of day, `h` hours and `m` minutes -/
def IsClock (s : String) (h m : Nat) : Prop :=
  ∃ hs ms : List Char, s.toList = hs ++ ':' :: ms ∧ Digits hs h ∧ Digits ms m ∧ h < 24 ∧ m < 60

theorem digitChar_isDigit {a : Nat} (h : a < 10) : (digitChar a).isDigit = true := by
  interval_cases a <;> decide

theorem digitChar_val {a : Nat} (h : a < 10) : (digitChar a).toNat - 48 = a := by
  interval_cases a <;> decide

theorem digitChar_ne {a : Nat} (h : a < 10) : digitChar a ≠ ':' := by
  interval_cases a <;> decide

theorem digitChar_of_isDigit {c : Char} (h : c.isDigit = true) :
    c.toNat - 48 < 10 ∧ c = digitChar (c.toNat - 48) := by
  have h1 : 48 ≤ c.toNat ∧ c.toNat ≤ 57 := by
    simp only [Char.isDigit, Bool.and_eq_true, decide_eq_true_eq] at h
    exact ⟨UInt32.le_iff_toNat_le.1 h.1, UInt32.le_iff_toNat_le.1 h.2⟩
  refine ⟨by omega, ?_⟩
  unfold digitChar
  rw [show 48 + (c.toNat - 48) = c.toNat by omega, Char.ofNat_toNat]

theorem digits_iff {l : List Char} {n : Nat} :
    Digits l n ↔ (l.length = 1 ∨ l.length = 2) ∧ l.all (fun c => c.isDigit) = true ∧
      digitsVal l = n := by
  constructor
  · rintro (⟨a, ha, rfl, rfl⟩ | ⟨a, ha, b, hb, rfl, rfl⟩)
    · refine ⟨.inl rfl, by simp [digitChar_isDigit ha], ?_⟩
      simp [digitsVal, digitChar_val ha]
    · refine ⟨.inr rfl, by simp [digitChar_isDigit ha, digitChar_isDigit hb], ?_⟩
      simp [digitsVal, digitChar_val ha, digitChar_val hb]
  · rintro ⟨hl, hd, rfl⟩
    match l, hl with
    | [c], _ =>
      simp only [List.all_cons, List.all_nil, Bool.and_true] at hd
      obtain ⟨h1, h2⟩ := digitChar_of_isDigit hd
      exact .inl ⟨_, h1, by rw [← h2], by simp [digitsVal]⟩
    | [c, d], _ =>
      simp only [List.all_cons, List.all_nil, Bool.and_true, Bool.and_eq_true] at hd
      obtain ⟨h1, h2⟩ := digitChar_of_isDigit hd.1
      obtain ⟨h3, h4⟩ := digitChar_of_isDigit hd.2
      exact .inr ⟨_, h1, _, h3, by rw [← h2, ← h4], by simp [digitsVal]⟩

theorem clockField_iff {l : List Char} {bound n : Nat} :
    clockField l bound = some n ↔ Digits l n ∧ n < bound := by
  unfold clockField
  rw [digits_iff]
  split
  · rename_i h
    simp only [Option.some.injEq]
    constructor
    · rintro rfl; exact ⟨⟨h.1, h.2.1, rfl⟩, h.2.2⟩
    · rintro ⟨⟨_, _, h3⟩, _⟩; exact h3
  · rename_i h
    simp only [reduceCtorEq, false_iff]
    rintro ⟨⟨h1, h2, rfl⟩, h4⟩
    exact h ⟨h1, h2, h4⟩

theorem digits_no_colon {l : List Char} {n : Nat} (h : Digits l n) : ∀ c ∈ l, c ≠ ':' := by
  rcases h with ⟨a, ha, rfl, rfl⟩ | ⟨a, ha, b, hb, rfl, rfl⟩
  · simp [digitChar_ne ha]
  · simp [digitChar_ne ha, digitChar_ne hb]

theorem takeWhile_colon {l m : List Char} (h : ∀ c ∈ l, c ≠ ':') :
    (l ++ ':' :: m).takeWhile (fun c => decide (c ≠ ':')) = l := by
  induction l with
  | nil => simp
  | cons c l ih =>
    rw [List.cons_append, List.takeWhile_cons, if_pos (by simpa using h c List.mem_cons_self),
      ih fun c hc => h c (List.mem_cons_of_mem _ hc)]

theorem drop_takeWhile (l : List Char) {c : Char} {m : List Char}
    (h : l.drop (l.takeWhile fun c => decide (c ≠ ':')).length = c :: m) : c = ':' := by
  induction l with
  | nil => simp at h
  | cons x l ih =>
    rw [List.takeWhile_cons] at h
    split at h
    · exact ih (by simpa using h)
    · rename_i hx
      simp only [List.length_nil, List.drop_zero, List.cons.injEq] at h
      rw [← h.1]; simpa using hx

theorem parseClock_iff {s : String} {n : Nat} :
    parseClock s = .ok n ↔ ∃ h m, IsClock s h m ∧ n = 60 * h + m := by
  unfold parseClock
  simp only
  constructor
  · intro hp
    split at hp
    · cases hp
    · rename_i c m hd
      split at hp
      · rename_i a b ha hb
        cases hp
        refine ⟨a, b, ⟨_, m, ?_, (clockField_iff.1 ha).1, (clockField_iff.1 hb).1,
          (clockField_iff.1 ha).2, (clockField_iff.1 hb).2⟩, rfl⟩
        have hc := drop_takeWhile _ hd
        subst hc
        rw [← hd]
        have h1 : (s.toList.takeWhile fun c => decide (c ≠ ':')) =
            s.toList.take (s.toList.takeWhile fun c => decide (c ≠ ':')).length :=
          (List.prefix_iff_eq_take.1 (List.takeWhile_prefix _))
        conv_rhs => rw [h1]
        simp only [List.length_take]
        rw [min_eq_left (List.takeWhile_prefix _).length_le]
        rw [List.take_append_drop]
      · cases hp
  · rintro ⟨h, m, ⟨hs, ms, he, hh, hm, h24, h60⟩, rfl⟩
    have ht := takeWhile_colon (m := ms) (digits_no_colon hh)
    rw [he, ht, List.drop_left']
    · simp only [clockField_iff.2 ⟨hh, h24⟩, clockField_iff.2 ⟨hm, h60⟩]
    · rfl

theorem parseClock_error {s : String} (h : ¬ ∃ a b, IsClock s a b) :
    parseClock s = .error .valueError := by
  cases hp : parseClock s with
  | ok n =>
    obtain ⟨a, b, hc, _⟩ := parseClock_iff.1 hp
    exact absurd ⟨a, b, hc⟩ h
  | error e =>
    unfold parseClock at hp
    simp only at hp
    split at hp
    · cases hp; rfl
    · split at hp <;> cases hp; rfl

/-- C37: the difference is the number of minutes from the first time to the second one, negative
if the second one is earlier. -/
theorem C37_minutes {t1 t2 : String} {h1 m1 h2 m2 : Nat} (c1 : IsClock t1 h1 m1)
    (c2 : IsClock t2 h2 m2) :
    calcTimeDiff t1 t2 = .ok (((60 * h2 + m2 : Nat) : ℚ) - ((60 * h1 + m1 : Nat) : ℚ)) := by
  unfold calcTimeDiff
  rw [parseClock_iff.2 ⟨_, _, c1, rfl⟩, parseClock_iff.2 ⟨_, _, c2, rfl⟩]
  simp only [bind, Except.bind]
  congr 1
  split
  · rename_i h
    rw [max_eq_left h.le, min_eq_right h.le]; ring
  · rename_i h
    rw [max_eq_right (not_lt.1 h), min_eq_left (not_lt.1 h)]

/-- C37: malformed times raise `ValueError`. -/
theorem C37_malformed {t1 t2 : String}
    (h : (¬ ∃ a b, IsClock t1 a b) ∨ (¬ ∃ a b, IsClock t2 a b)) :
    calcTimeDiff t1 t2 = .error .valueError := by
  unfold calcTimeDiff
  by_cases h1 : ∃ a b, IsClock t1 a b
  · obtain ⟨a, b, hab⟩ := h1
    rcases h with h | h
    · exact absurd ⟨a, b, hab⟩ h
    · rw [parseClock_iff.2 ⟨_, _, hab, rfl⟩, parseClock_error h]; rfl
  · rw [parseClock_error h1]; rfl

/-- C37: differences add up. -/
theorem C37_additive {t1 t2 t3 : String} {a b : ℚ} (h1 : calcTimeDiff t1 t2 = .ok a)
    (h2 : calcTimeDiff t2 t3 = .ok b) : calcTimeDiff t1 t3 = .ok (a + b) := by
  by_cases c1 : ∃ x y, IsClock t1 x y
  · by_cases c2 : ∃ x y, IsClock t2 x y
    · by_cases c3 : ∃ x y, IsClock t3 x y
      · obtain ⟨x1, y1, c1⟩ := c1
        obtain ⟨x2, y2, c2⟩ := c2
        obtain ⟨x3, y3, c3⟩ := c3
        rw [C37_minutes c1 c2] at h1
        rw [C37_minutes c2 c3] at h2
        cases h1; cases h2
        rw [C37_minutes c1 c3]
        congr 1; ring
      · rw [C37_malformed (.inr c3)] at h2; cases h2
    · rw [C37_malformed (.inr c2)] at h1; cases h1
  · rw [C37_malformed (.inl c1)] at h1; cases h1

/-- the hypotheses of `C37_minutes` and `C37_additive`, and a malformed time -/
example : calcTimeDiff "16:00" "15:47" = .ok (-13) ∧ calcTimeDiff "15:47" "9:05" = .ok (-402) ∧
    calcTimeDiff "16:00" "24:00" = .error .valueError ∧
    calcTimeDiff "16:00" "16:5x" = .error .valueError := by decide +kernel

example : IsClock "16:00" 16 0 :=
  ⟨['1', '6'], ['0', '0'], by decide +kernel,
    .inr ⟨1, by decide, 6, by decide, by decide, rfl⟩,
    .inr ⟨0, by decide, 0, by decide, by decide, rfl⟩, by decide, by decide⟩

end Verif
