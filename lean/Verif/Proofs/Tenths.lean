import Verif.Proofs.CodedPlan

/-!
# Rounding and headways in tenths of minutes
-/

namespace Verif

namespace CodedNet

theorem floor_tenths (n : Int) : ⌊(n : ℚ) / 10⌋ = n / 10 := by
  rw [Int.floor_eq_iff]
  have h1 : (10 : ℤ) * (n / 10) ≤ n := by omega
  have h2 : n < (10 : ℤ) * (n / 10) + 10 := by omega
  have h1' : (10 : ℚ) * ((n / 10 : ℤ) : ℚ) ≤ n := by exact_mod_cast h1
  have h2' : (n : ℚ) < (10 : ℚ) * ((n / 10 : ℤ) : ℚ) + 10 := by exact_mod_cast h2
  constructor <;> linarith

theorem pyRound_tenths (n : Int) : pyRound ((n : ℚ) / 10) = roundTenths n := by
  unfold pyRound roundTenths
  rw [floor_tenths]
  have e : (n : ℚ) / 10 - ((n / 10 : ℤ) : ℚ) = ((n % 10 : ℤ) : ℚ) / 10 := by
    have : (n : ℚ) = ((10 * (n / 10) + n % 10 : ℤ) : ℚ) := by
      rw [Int.mul_ediv_add_emod]
    rw [this]
    push_cast
    ring
  rw [e]
  have c1 : ((n % 10 : ℤ) : ℚ) / 10 < 1 / 2 ↔ n % 10 < 5 := by
    rw [div_lt_div_iff₀ (by norm_num) (by norm_num)]
    constructor
    · intro h
      have : ((n % 10 : ℤ) : ℚ) < 5 := by linarith
      exact_mod_cast this
    · intro h
      have : ((n % 10 : ℤ) : ℚ) < 5 := by exact_mod_cast h
      linarith
  have c2 : 1 / 2 < ((n % 10 : ℤ) : ℚ) / 10 ↔ 5 < n % 10 := by
    rw [div_lt_div_iff₀ (by norm_num) (by norm_num)]
    constructor
    · intro h
      have : (5 : ℚ) < ((n % 10 : ℤ) : ℚ) := by linarith
      exact_mod_cast this
    · intro h
      have : (5 : ℚ) < ((n % 10 : ℤ) : ℚ) := by exact_mod_cast h
      linarith
  simp only [c1, c2]

theorem roundIf_tenths (n : Int) : roundIf 1 ((n : ℚ) / 10) = (roundTenths n : ℚ) := by
  unfold roundIf
  rw [if_pos rfl, pyRound_tenths]

theorem tenths_eq {v : Option ℚ} (h : isTenths v = true) : v.getD 0 = (tenths v : ℚ) / 10 := by
  unfold isTenths at h
  rw [Nat.beq_eq] at h
  have := Rat.num_div_den (10 * v.getD 0)
  rw [h] at this
  unfold tenths
  rw [eq_div_iff (by norm_num)]
  simp only [Nat.cast_one, div_one] at this
  rw [this]
  ring

/-- tenths to minutes -/
def minutes (l : List Int) : List ℚ := l.map fun (n : Int) => (n : ℚ) / 10

theorem minutes_sum (l : List Int) : (minutes l).sum = (l.sum : ℚ) / 10 := by
  unfold minutes
  induction l with
  | nil => simp
  | cons a l ih =>
    rw [List.map_cons, List.sum_cons, ih, List.sum_cons]
    push_cast
    ring

theorem minutes_getD (l : List Int) (i : Nat) : (minutes l).getD i 0 = (l.getD i 0 : ℚ) / 10 := by
  unfold minutes
  rw [List.getD_eq_getElem?_getD, List.getD_eq_getElem?_getD, List.getElem?_map]
  cases l[i]? <;> simp

theorem max?_minutes (l : List Int) : (minutes l).max? = l.max?.map fun (n : Int) => (n : ℚ) / 10 := by
  cases l with
  | nil => rfl
  | cons a l =>
    unfold minutes
    rw [List.map_cons, List.max?_cons', List.max?_cons', Option.map_some]
    congr 1
    induction l generalizing a with
    | nil => rfl
    | cons b l ih =>
      rw [List.map_cons, List.foldl_cons, List.foldl_cons, ← ih]
      congr 1
      push_cast
      rw [max_div_div_right (by norm_num)]

theorem headway_tenths (k : Nat) (t1 t2 : List Int) :
    (headwayOf k (minutes t1) (minutes t2)).getD 0 = (headwayTenths k t1 t2 : ℚ) / 10 := by
  have e : headwayOf k (minutes t1) (minutes t2) = (minutes ((List.range t1.length).map fun x =>
      ((t1.drop x).take k).sum + ((List.range x).map fun i => t1.getD i 0 - t2.getD i 0).sum)).max? := by
    unfold headwayOf
    congr 1
    have hl : (minutes t1).length = t1.length := by unfold minutes; simp
    rw [hl]
    conv_rhs => unfold minutes
    rw [List.map_map]
    refine List.map_congr_left fun x _ => ?_
    simp only [Function.comp_apply]
    have h1 : ((minutes t1).drop x).take k = minutes ((t1.drop x).take k) := by
      unfold minutes
      rw [List.map_take, List.map_drop]
    have h2 : ((List.range x).map fun i => (minutes t1).getD i 0 - (minutes t2).getD i 0) =
        minutes ((List.range x).map fun i => t1.getD i 0 - t2.getD i 0) := by
      conv_rhs => unfold minutes
      rw [List.map_map]
      refine List.map_congr_left fun i _ => ?_
      simp only [Function.comp_apply, minutes_getD]
      push_cast
      ring
    rw [h1, h2, minutes_sum, minutes_sum]
    push_cast
    ring
  rw [e, max?_minutes]
  unfold headwayTenths
  cases ((List.range t1.length).map fun x =>
      ((t1.drop x).take k).sum + ((List.range x).map fun i => t1.getD i 0 - t2.getD i 0).sum).max? with
  | none => simp
  | some v => simp

end CodedNet

end Verif
