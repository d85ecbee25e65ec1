import Verif.Model.JTaus
import Verif.Proofs.Loops
import Mathlib.Tactic.Ring
import Mathlib.Algebra.BigOperators.Group.List.Basic

/-!
# Facts about rounding, maxima and passing times of blocks
-/

namespace Verif

/-- rounding moves a number by at most a half -/
theorem pyRound_near (q : ℚ) : (pyRound q : ℚ) - q ≤ 1 / 2 ∧ q - (pyRound q : ℚ) ≤ 1 / 2 := by
  have h1 := Int.floor_le q
  have h2 := Int.lt_floor_add_one q
  unfold pyRound
  split
  · constructor <;> linarith
  · split
    · push_cast; constructor <;> linarith
    · split
      · constructor <;> linarith
      · push_cast; constructor <;> linarith

theorem pyRound_int (n : ℤ) : pyRound (n : ℚ) = n := by
  unfold pyRound
  simp

theorem foldl_max_le (x c : ℚ) (l : List ℚ) :
    l.foldl max x ≤ c ↔ x ≤ c ∧ ∀ y ∈ l, y ≤ c := by
  induction l generalizing x with
  | nil => simp
  | cons y l ih =>
    rw [List.foldl_cons, ih, max_le_iff]
    simp only [List.forall_mem_cons, and_assoc]

theorem max?_le {l : List ℚ} {m : ℚ} (h : l.max? = some m) (c : ℚ) : m ≤ c ↔ ∀ y ∈ l, y ≤ c := by
  cases l with
  | nil => cases h
  | cons x l =>
    rw [List.max?_cons'] at h
    cases h
    rw [foldl_max_le, List.forall_mem_cons]

theorem sum_sub_range (a b : List ℚ) (x : Nat) (ha : x ≤ a.length) (hb : x ≤ b.length) :
    ((List.range x).map fun i => a.getD i 0 - b.getD i 0).sum = (a.take x).sum - (b.take x).sum := by
  induction x with
  | zero => simp
  | succ x ih =>
    rw [List.range_succ, List.map_append, List.sum_append, ih (by omega) (by omega),
      List.take_succ_eq_append_getElem (by omega), List.take_succ_eq_append_getElem (by omega)]
    simp only [List.map_cons, List.map_nil, List.sum_cons, List.sum_nil, List.sum_append]
    rw [List.getD_eq_getElem?_getD, List.getD_eq_getElem?_getD,
      List.getElem?_eq_getElem (by omega), List.getElem?_eq_getElem (by omega)]
    simp only [Option.getD_some]
    ring

theorem take_add_sum (a : List ℚ) (x k : Nat) :
    (a.take (x + k)).sum = (a.take x).sum + ((a.drop x).take k).sum := by
  rw [List.take_add, List.sum_append]

/-- the row of a block that occurs once in the timetable -/
theorem filter_path {tt : List Row} (hnd : (tt.map (·.path)).Nodup) {r : Row} (hr : r ∈ tt) :
    (tt.filter fun x => decide (x.path = r.path)) = [r] := by
  induction tt with
  | nil => cases hr
  | cons x tt ih =>
    rw [List.map_cons, List.nodup_cons] at hnd
    rcases List.mem_cons.1 hr with rfl | hr
    · rw [List.filter_cons_of_pos (by simp)]
      congr 1
      rw [List.filter_eq_nil_iff]
      intro y hy
      simp only [decide_eq_true_eq]
      intro h
      exact hnd.1 (h ▸ List.mem_map_of_mem hy)
    · rw [List.filter_cons_of_neg]
      · exact ih hnd.2 hr
      · simp only [decide_eq_true_eq]
        intro h
        exact hnd.1 (h ▸ List.mem_map_of_mem hr)

theorem passing_of_row {tt : List Row} (hnd : (tt.map (·.path)).Nodup) {r : Row} (hr : r ∈ tt) :
    getPassingTimeBlock r.path tt = .ok (r.passingTime.getD 0) := by
  unfold getPassingTimeBlock
  rw [filter_path hnd hr]
  rfl

theorem passing_of_rows {tt : List Row} (hnd : (tt.map (·.path)).Nodup) {m : List Row}
    (hm : ∀ r ∈ m, r ∈ tt) :
    mapPy (fun b => getPassingTimeBlock b tt) (m.map (·.path)) =
      .ok (m.map fun r => r.passingTime.getD 0) := by
  induction m with
  | nil => rfl
  | cons r m ih =>
    simp only [List.map_cons, mapPy, passing_of_row hnd (hm r List.mem_cons_self),
      ih fun x hx => hm x (List.mem_cons_of_mem _ hx)]

end Verif
