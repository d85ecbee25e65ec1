import Verif.Model.Bqm
import Verif.Props.Cqm
import Std.Data.String.ToNat

/-!
# The quadratic unconstrained model: C22, C23, C24
-/

namespace Verif

/-! ## Bits of different labels are different -/

/-- the bits that belong to a label -/
def Owned (l s : String) : Prop := s = l ∨ ∃ i, s = bitName l i

theorem split_char {c : Char} {a b x y : List Char} (ha : c ∉ a) (hb : c ∉ b)
    (h : a ++ c :: x = b ++ c :: y) : a = b ∧ x = y := by
  induction a generalizing b with
  | nil =>
    cases b with
    | nil => simpa using h
    | cons d b =>
      simp only [List.nil_append, List.cons_append, List.cons.injEq] at h
      simp [h.1] at hb
  | cons d a ih =>
    cases b with
    | nil =>
      simp only [List.nil_append, List.cons_append, List.cons.injEq] at h
      simp [h.1] at ha
    | cons e b =>
      simp only [List.cons_append, List.cons.injEq] at h
      simp only [List.mem_cons, not_or] at ha hb
      obtain ⟨h1, h2⟩ := ih ha.2 hb.2 h.2
      exact ⟨by rw [h.1, h1], h2⟩

theorem bitName_toList (l : String) (i : ℕ) :
    (bitName l i).toList = l.toList ++ '[' :: ((toString i).toList ++ [']']) := by
  have h1 : "[".toList = ['['] := by decide
  have h2 : "]".toList = [']'] := by decide
  simp [bitName, h1, h2]

theorem bitName_inj {l l' : String} {i i' : ℕ} (hl : '[' ∉ l.toList) (hl' : '[' ∉ l'.toList)
    (h : bitName l i = bitName l' i') : l = l' ∧ i = i' := by
  have h' := congrArg String.toList h
  rw [bitName_toList, bitName_toList] at h'
  obtain ⟨h1, h2⟩ := split_char hl hl' h'
  refine ⟨String.ext h1, ?_⟩
  have h3 : (toString i).toList = (toString i').toList := List.append_cancel_right h2
  exact Nat.repr_injective (String.ext h3)

theorem owned_unique {l l' s : String} (hl : '[' ∉ l.toList) (hl' : '[' ∉ l'.toList)
    (h : Owned l s) (h' : Owned l' s) : l = l' := by
  rcases h with rfl | ⟨i, rfl⟩
  · rcases h' with rfl | ⟨i, rfl⟩
    · rfl
    · rw [bitName_toList] at hl; simp at hl
  · rcases h' with rfl | ⟨i', h'⟩
    · rw [bitName_toList] at hl'; simp at hl'
    · exact (bitName_inj hl hl' h').1

theorem BitExpr.eval_congr {e : BitExpr} {x y : Bits} (h : ∀ t ∈ e.terms, x t.1 = y t.1) :
    e.eval x = e.eval y := by
  unfold BitExpr.eval
  congr 2
  apply List.map_congr_left
  intro t ht
  rw [h t ht]

/-! ## C22 -/

/-- bits of a number below `2 ^ d` -/
theorem binary_sum (d n : ℕ) (hn : n < 2 ^ d) :
    ((List.range d).map fun i => (2 : ℚ) ^ i * (if n.testBit i then 1 else 0)).sum = n := by
  induction d generalizing n with
  | zero => simp at hn; subst hn; simp
  | succ d ih =>
    rw [List.range_succ, List.map_append, List.sum_append]
    simp only [List.map_cons, List.map_nil, List.sum_cons, List.sum_nil, add_zero]
    have h1 : ((List.range d).map fun i => (2 : ℚ) ^ i * (if n.testBit i then 1 else 0)) =
        ((List.range d).map fun i => (2 : ℚ) ^ i * (if (n % 2 ^ d).testBit i then 1 else 0)) := by
      apply List.map_congr_left
      intro i hi
      rw [List.mem_range] at hi
      rw [Nat.testBit_mod_two_pow]
      simp [hi]
    rw [h1, ih _ (Nat.mod_lt _ (by positivity))]
    have h2 := Nat.mod_add_div n (2 ^ d)
    have h3 : n / 2 ^ d < 2 := by
      rw [Nat.div_lt_iff_lt_mul (by positivity)]
      rw [pow_succ] at hn; omega
    have h4 : n.testBit d = decide (n / 2 ^ d = 1) := by
      rw [Nat.testBit_eq_decide_div_mod_eq, Nat.mod_eq_of_lt h3]
    rw [h4]
    have h5 := Nat.le_one_iff_eq_zero_or_eq_one.1 (Nat.lt_succ_iff.1 h3)
    rcases h5 with h5 | h5
    · rw [h5] at h2
      simp [h5]
      exact_mod_cast (by omega : n % 2 ^ d = n)
    · rw [h5] at h2
      simp [h5]
      exact_mod_cast (by omega : n % 2 ^ d + 2 ^ d = n)

/-- sums of the first `d` bits are numbers below `2 ^ d` -/
theorem binary_range (d : ℕ) (f : ℕ → Bool) : ∃ n : ℕ, n < 2 ^ d ∧
    ((List.range d).map fun i => (2 : ℚ) ^ i * (if f i then 1 else 0)).sum = n := by
  induction d with
  | zero => exact ⟨0, by simp, by simp⟩
  | succ d ih =>
    obtain ⟨n, h1, h2⟩ := ih
    rw [List.range_succ, List.map_append, List.sum_append, h2]
    simp only [List.map_cons, List.map_nil, List.sum_cons, List.sum_nil, add_zero]
    have hp : 2 ^ (d + 1) = 2 ^ d + 2 ^ d := by rw [pow_succ]; ring
    cases f d
    · exact ⟨n, by omega, by simp⟩
    · exact ⟨n + 2 ^ d, by omega, by push_cast; simp⟩

theorem logEnc_ok {label : String} {lo up : ℚ} {e : BitExpr}
    (h : logEncInteger label lo up = .ok e) :
    ∃ (a : ℤ) (span : ℕ), lo = a ∧ up = a + span ∧ 0 < span ∧ e = ⟨logEncTerms label span, lo⟩ := by
  unfold logEncInteger at h
  split at h
  · rename_i hlt
    split at h
    · rename_i hd
      cases h
      have e1 : lo = lo.num := (Rat.den_eq_one_iff lo).1 hd.1 |>.symm
      have e2 : up = up.num := (Rat.den_eq_one_iff up).1 hd.2 |>.symm
      have hsub : up - lo = ((up.num - lo.num : ℤ) : ℚ) := by push_cast; rw [← e1, ← e2]
      have hnum : (up - lo).num = up.num - lo.num := by rw [hsub]; exact Rat.num_intCast _
      have hlt' : lo.num < up.num := by rw [e1, e2] at hlt; exact_mod_cast hlt
      have hspan : ((up.num - lo.num).toNat : ℤ) = up.num - lo.num := Int.toNat_of_nonneg (by omega)
      refine ⟨lo.num, (up.num - lo.num).toNat, e1, ?_, by omega, by rw [hnum]⟩
      have : (((up.num - lo.num).toNat : ℤ) : ℚ) = ((up.num - lo.num : ℤ) : ℚ) := by rw [hspan]
      rw [Int.cast_natCast] at this
      rw [this]; push_cast
      rw [← e2]; ring
    · cases h
  · cases h

theorem logEnc_owned {label : String} {lo up : ℚ} {e : BitExpr}
    (h : logEncInteger label lo up = .ok e) : ∀ t ∈ e.terms, Owned label t.1 := by
  obtain ⟨a, span, _, _, _, rfl⟩ := logEnc_ok h
  intro t ht
  simp only [logEncTerms, List.mem_append, List.mem_map, List.mem_singleton] at ht
  rcases ht with ⟨i, _, rfl⟩ | rfl
  · exact .inr ⟨_, rfl⟩
  · exact .inr ⟨_, rfl⟩

theorem logEnc_eval (label : String) (span : ℕ) (lo : ℚ) (x : Bits) :
    BitExpr.eval ⟨logEncTerms label span, lo⟩ x =
      lo + ((List.range (Nat.log 2 span)).map fun i =>
        (2 : ℚ) ^ i * (if x (bitName label i) then 1 else 0)).sum +
      ((span : ℚ) - (2 ^ Nat.log 2 span - 1)) *
        (if x (bitName label (Nat.log 2 span)) then 1 else 0) := by
  simp only [BitExpr.eval, logEncTerms, List.map_append, List.map_map, List.sum_append,
    List.map_cons, List.map_nil, List.sum_cons, List.sum_nil, add_zero]
  rw [add_comm]
  rw [← add_assoc]
  rfl

/-- **C22.** `LogEncInteger` accepts exactly integer ranges `lo < up`; then every bit string stands
for an integer of the range, and every integer of the range is reached, whatever the bits of other
labels are. -/
theorem C22_range (label : String) (lo up : ℚ) :
    ((∃ e, logEncInteger label lo up = .ok e) ↔
      lo < up ∧ (∃ a : ℤ, lo = a) ∧ ∃ c : ℤ, up = c) ∧
    ∀ e, logEncInteger label lo up = .ok e →
      (∀ x, ∃ n : ℤ, e.eval x = n ∧ lo ≤ n ∧ (n : ℚ) ≤ up) ∧
      ('[' ∉ label.toList → ∀ (n : ℤ) (x₀ : Bits), lo ≤ n → (n : ℚ) ≤ up →
        ∃ x, e.eval x = n ∧ ∀ s, ¬ Owned label s → x s = x₀ s) := by
  refine ⟨⟨?_, ?_⟩, ?_⟩
  · rintro ⟨e, he⟩
    obtain ⟨a, span, h1, h2, h3, _⟩ := logEnc_ok he
    refine ⟨?_, ⟨a, h1⟩, ⟨a + span, by rw [h2]; push_cast; rfl⟩⟩
    rw [h1, h2]
    have : (0 : ℚ) < span := by exact_mod_cast h3
    linarith
  · rintro ⟨hlt, ⟨a, rfl⟩, ⟨c, rfl⟩⟩
    unfold logEncInteger
    rw [if_pos hlt, if_pos ⟨Rat.den_intCast a, Rat.den_intCast c⟩]
    exact ⟨_, rfl⟩
  · intro e he
    obtain ⟨a, span, h1, h2, h3, rfl⟩ := logEnc_ok he
    have hlow : 2 ^ Nat.log 2 span ≤ span := Nat.pow_log_le_self 2 (by omega)
    have hup : span < 2 ^ (Nat.log 2 span + 1) := Nat.lt_pow_succ_log_self (by norm_num) span
    rw [pow_succ] at hup
    constructor
    · intro x
      rw [logEnc_eval]
      obtain ⟨m, hm1, hm2⟩ := binary_range (Nat.log 2 span) fun i => x (bitName label i)
      rw [hm2, h2, h1]
      generalize hD : 2 ^ Nat.log 2 span = D at *
      have hDq : (2 : ℚ) ^ Nat.log 2 span = D := by rw [← hD]; push_cast; rfl
      rw [hDq]
      cases x (bitName label (Nat.log 2 span))
      · refine ⟨a + m, by simp, ?_, ?_⟩
        · push_cast
          have : (0 : ℚ) ≤ m := by positivity
          linarith
        · push_cast
          have : (m : ℚ) ≤ span := by exact_mod_cast (by omega : m ≤ span)
          linarith
      · refine ⟨a + m + (span - (D - 1)), by push_cast; simp, ?_, ?_⟩
        · push_cast
          have h5 : (D : ℚ) ≤ span := by exact_mod_cast hlow
          have : (0 : ℚ) ≤ m := by positivity
          linarith
        · push_cast
          have : (m : ℚ) + 1 ≤ D := by exact_mod_cast hm1
          linarith
    · intro hl n x₀ hn1 hn2
      rw [h1] at hn1
      rw [h2] at hn2
      have hn1' : a ≤ n := by exact_mod_cast hn1
      have hn2' : n ≤ a + span := by exact_mod_cast hn2
      obtain ⟨m, hm⟩ : ∃ m : ℕ, n = a + m := ⟨(n - a).toNat, by omega⟩
      have hms : m ≤ span := by omega
      generalize hD : 2 ^ Nat.log 2 span = D at *
      have hDq : (2 : ℚ) ^ Nat.log 2 span = D := by rw [← hD]; push_cast; rfl
      -- bits: number `k` in the first bits, `last` in the last one
      have build : ∀ (k : ℕ) (last : Bool), k < 2 ^ Nat.log 2 span → ∃ x : Bits,
          (∀ i < Nat.log 2 span, x (bitName label i) = k.testBit i) ∧
          x (bitName label (Nat.log 2 span)) = last ∧ ∀ s, ¬ Owned label s → x s = x₀ s := by
        classical
        intro k last _
        refine ⟨fun s => if h : ∃ i, s = bitName label i then
          (if h.choose < Nat.log 2 span then k.testBit h.choose else last) else x₀ s, ?_, ?_, ?_⟩
        · intro i hi
          have h : ∃ i', bitName label i = bitName label i' := ⟨i, rfl⟩
          have hc : h.choose = i := ((bitName_inj hl hl h.choose_spec).2).symm
          simp only [dif_pos h, hc, hi, if_true]
        · have h : ∃ i', bitName label (Nat.log 2 span) = bitName label i' := ⟨_, rfl⟩
          have hc : h.choose = Nat.log 2 span := ((bitName_inj hl hl h.choose_spec).2).symm
          simp only [dif_pos h, hc, lt_irrefl, if_false]
        · intro s hs
          have h : ¬ ∃ i, s = bitName label i := fun h => hs (.inr h)
          simp only [dif_neg h]
      by_cases hmD : m < D
      · obtain ⟨x, hx1, hx2, hx3⟩ := build m false (by rw [hD]; exact hmD)
        refine ⟨x, ?_, hx3⟩
        rw [logEnc_eval, hx2]
        have : ((List.range (Nat.log 2 span)).map fun i =>
            (2 : ℚ) ^ i * (if x (bitName label i) then 1 else 0)) =
            ((List.range (Nat.log 2 span)).map fun i =>
              (2 : ℚ) ^ i * (if m.testBit i then 1 else 0)) := by
          apply List.map_congr_left
          intro i hi
          rw [hx1 i (List.mem_range.1 hi)]
        rw [this, binary_sum _ _ (by rw [hD]; exact hmD), h1, hm]
        push_cast; simp
      · have hk : m - (span - (D - 1)) < D := by omega
        obtain ⟨x, hx1, hx2, hx3⟩ := build (m - (span - (D - 1))) true (by rw [hD]; exact hk)
        refine ⟨x, ?_, hx3⟩
        rw [logEnc_eval, hx2]
        have : ((List.range (Nat.log 2 span)).map fun i =>
            (2 : ℚ) ^ i * (if x (bitName label i) then 1 else 0)) =
            ((List.range (Nat.log 2 span)).map fun i =>
              (2 : ℚ) ^ i * (if (m - (span - (D - 1))).testBit i then 1 else 0)) := by
          apply List.map_congr_left
          intro i hi
          rw [hx1 i (List.mem_range.1 hi)]
        rw [this, binary_sum _ _ (by rw [hD]; exact hk), h1, hm, hDq]
        have hD1 : 1 ≤ D := by rw [← hD]; exact Nat.one_le_two_pow
        have h7 : ((m - (span - (D - 1)) : ℕ) : ℚ) = m - (span - (D - 1)) := by
          rw [Nat.cast_sub (by omega), Nat.cast_sub (by omega), Nat.cast_sub (by omega)]
          norm_num
        rw [h7]; push_cast; simp only [if_true]; ring

/-- the range `2..12` takes four bits with weights 1, 2, 4, 3 -/
example : (match logEncInteger "x" 2 12 with
    | .ok e => decide (e.terms.map Prod.snd = [1, 2, 4, 3])
    | .error _ => false) = true ∧ logEncInteger "x" 3 3 = .error .assertionError := by
  constructor
  · decide +kernel
  · rfl

end Verif
