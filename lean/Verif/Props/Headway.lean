import Verif.Proofs.Times
import Verif.Spec.Data
import Verif.Props.Between
import Mathlib.Algebra.Order.BigOperators.Group.List

/-!
# C33, C34: headways
-/

namespace Verif

/-- the time at which a train that leaves at `d` enters block number `x` of the line, given its
passing times of the blocks -/
def enters (d : ℚ) (times : List ℚ) (x : Nat) : ℚ := d + (times.take x).sum

/-- the time at which it leaves block number `x` -/
def leaves (d : ℚ) (times : List ℚ) (x : Nat) : ℚ := d + (times.take (x + 1)).sum

/-- The second train never enters a block before the first one has left the `k`-th block from there
(or the last one of the line), up to `tol` minutes. -/
def BlocksApart (tol : ℚ) (k : Nat) (d1 : ℚ) (t1 : List ℚ) (d2 : ℚ) (t2 : List ℚ) : Prop :=
  ∀ x, x < t1.length →
    leaves d1 t1 (min (x + k) t1.length - 1) - tol ≤ enters d2 t2 x

theorem take_min_sum (t : List ℚ) (x k : Nat) (hk : 0 < k) (hx : x < t.length) :
    (t.take (min (x + k) t.length - 1 + 1)).sum = (t.take (x + k)).sum := by
  rw [Nat.sub_add_cancel (by omega)]
  congr 1
  rw [Nat.min_comm, ← List.take_take, List.take_of_length_le (by simp)]

/-- C33 for the formula: the separation of the departures is at least the headway exactly when the
blocks are kept apart; so the headway is the least separation that guarantees it. -/
theorem C33_formula (k : Nat) (hk : 0 < k) (t1 t2 : List ℚ) (hlen : t1.length = t2.length) (h : ℚ)
    (hh : headwayOf k t1 t2 = some h) (tol d1 d2 : ℚ) :
    h - tol ≤ d2 - d1 ↔ BlocksApart tol k d1 t1 d2 t2 := by
  unfold headwayOf at hh
  rw [sub_le_iff_le_add, max?_le hh]
  unfold BlocksApart enters leaves
  simp only [List.forall_mem_map, List.mem_range]
  refine forall_congr' fun x => forall_congr' fun hx => ?_
  rw [take_min_sum t1 x k hk hx, sum_sub_range t1 t2 x (by omega) (by omega), take_add_sum]
  constructor <;> intro h <;> linarith

/-- C33: the headway is defined for any non-empty line. -/
theorem C33_defined (k : Nat) (t1 t2 : List ℚ) : (∃ h, headwayOf k t1 t2 = some h) ↔ t1 ≠ [] := by
  unfold headwayOf
  cases hc : ((List.range t1.length).map fun x =>
    ((t1.drop x).take k).sum + ((List.range x).map fun i => t1.getD i 0 - t2.getD i 0).sum).max? with
  | none =>
    rw [List.max?_eq_none_iff, List.map_eq_nil_iff, List.range_eq_nil] at hc
    simp [List.length_eq_zero_iff.1 hc]
  | some h =>
    simp only [Option.some.injEq, exists_eq', ne_eq, true_iff]
    rintro rfl
    simp at hc

theorem headwayTime_eq (pre1 mid1 post1 pre2 mid2 post2 : List Row) (a1 b1 a2 b2 : Row)
    (s s' : String)
    (ha1 : a1.station = some s) (hb1 : b1.station = some s')
    (ha2 : a2.station = some s) (hb2 : b2.station = some s')
    (hpre1 : ∀ r ∈ pre1, AtNeither s s' r) (hpost1 : ∀ r ∈ post1, AtNeither s s' r)
    (hpre2 : ∀ r ∈ pre2, AtNeither s s' r) (hpost2 : ∀ r ∈ post2, AtNeither s s' r)
    (hnd1 : ((pre1 ++ a1 :: mid1 ++ b1 :: post1).map (·.path)).Nodup)
    (hnd2 : ((pre2 ++ a2 :: mid2 ++ b2 :: post2).map (·.path)).Nodup)
    (hsame : mid1.map (·.path) = mid2.map (·.path)) (r : Int) :
    headwayTime (pre1 ++ a1 :: mid1 ++ b1 :: post1) (pre2 ++ a2 :: mid2 ++ b2 :: post2) s s' r =
      .ok (roundIf r ((headwayOf (headwayK s s') (timesOf mid1) (timesOf mid2)).getD 0)) := by
  have hc : commonPath (pre1 ++ a1 :: mid1 ++ b1 :: post1) (pre2 ++ a2 :: mid2 ++ b2 :: post2) s s'
      = mid1.map (·.path) := by
    unfold commonPath
    rw [C45_between pre1 mid1 post1 a1 b1 s s' ha1 hb1 hpre1 hpost1,
      C45_between pre2 mid2 post2 a2 b2 s s' ha2 hb2 hpre2 hpost2]
    simp [hsame]
  unfold headwayTime
  simp only [hc]
  have p1 := passing_of_rows hnd1 (m := mid1) (by intro r hr; simp [hr])
  have p2 := passing_of_rows hnd2 (m := mid2) (by intro r hr; simp [hr])
  rw [← hsame] at p2
  rw [p1, p2]
  rfl

theorem headwayK_pos (s s' : String) : 0 < headwayK s s' := by
  unfold headwayK; split <;> omega

/-- on the listed lines `k = 1`, on all others `k = 2` -/
theorem headwayK_iff (s s' : String) : (headwayK s s' = 1 ↔
      (s, s') ∈ [("KO(STM)", "KZ"), ("CB", "CM"), ("KTC-CB", "via Gt")] ∨
      (s', s) ∈ [("KO(STM)", "KZ"), ("CB", "CM"), ("KTC-CB", "via Gt")]) ∧
    (headwayK s s' = 1 ∨ headwayK s s' = 2) := by
  unfold headwayK k1Pairs
  split
  · rename_i h; exact ⟨⟨fun _ => h, fun _ => rfl⟩, .inl rfl⟩
  · rename_i h
    refine ⟨⟨fun h1 => by simp at h1, fun h1 => absurd h1 h⟩, .inr rfl⟩

/-- C33 for timetables (unrounded, `r ≠ 1`): two trains run over the same blocks from `s` to `s'`.
The second one leaves at least the computed headway after the first one exactly when on every block
it stays `k` blocks behind. -/
theorem C33_headway (pre1 mid1 post1 pre2 mid2 post2 : List Row) (a1 b1 a2 b2 : Row)
    (s s' : String)
    (ha1 : a1.station = some s) (hb1 : b1.station = some s')
    (ha2 : a2.station = some s) (hb2 : b2.station = some s')
    (hpre1 : ∀ r ∈ pre1, AtNeither s s' r) (hpost1 : ∀ r ∈ post1, AtNeither s s' r)
    (hpre2 : ∀ r ∈ pre2, AtNeither s s' r) (hpost2 : ∀ r ∈ post2, AtNeither s s' r)
    (hnd1 : ((pre1 ++ a1 :: mid1 ++ b1 :: post1).map (·.path)).Nodup)
    (hnd2 : ((pre2 ++ a2 :: mid2 ++ b2 :: post2).map (·.path)).Nodup)
    (hsame : mid1.map (·.path) = mid2.map (·.path)) (hne : mid1 ≠ [])
    (r : Int) (hr : r ≠ 1) (h : ℚ)
    (hh : headwayTime (pre1 ++ a1 :: mid1 ++ b1 :: post1) (pre2 ++ a2 :: mid2 ++ b2 :: post2)
      s s' r = .ok h) (d1 d2 : ℚ) :
    h ≤ d2 - d1 ↔ BlocksApart 0 (headwayK s s') d1 (timesOf mid1) d2 (timesOf mid2) := by
  rw [headwayTime_eq pre1 mid1 post1 pre2 mid2 post2 a1 b1 a2 b2 s s' ha1 hb1 ha2 hb2 hpre1 hpost1
    hpre2 hpost2 hnd1 hnd2 hsame] at hh
  obtain ⟨h', hh'⟩ := (C33_defined (headwayK s s') (timesOf mid1) (timesOf mid2)).2
    (by simpa [timesOf] using hne)
  rw [hh'] at hh
  simp only [Option.getD_some, roundIf, if_neg hr, Except.ok.injEq] at hh
  subst hh
  have hlen : (timesOf mid1).length = (timesOf mid2).length := by
    have := congrArg List.length hsame
    simpa [timesOf] using this
  rw [← C33_formula (headwayK s s') (headwayK_pos s s') _ _ hlen h' hh' 0 d1 d2, sub_zero]

/-- C33 with rounding (`r = 1`): the guarantee holds up to half a minute. -/
theorem C33_rounded (pre1 mid1 post1 pre2 mid2 post2 : List Row) (a1 b1 a2 b2 : Row)
    (s s' : String)
    (ha1 : a1.station = some s) (hb1 : b1.station = some s')
    (ha2 : a2.station = some s) (hb2 : b2.station = some s')
    (hpre1 : ∀ r ∈ pre1, AtNeither s s' r) (hpost1 : ∀ r ∈ post1, AtNeither s s' r)
    (hpre2 : ∀ r ∈ pre2, AtNeither s s' r) (hpost2 : ∀ r ∈ post2, AtNeither s s' r)
    (hnd1 : ((pre1 ++ a1 :: mid1 ++ b1 :: post1).map (·.path)).Nodup)
    (hnd2 : ((pre2 ++ a2 :: mid2 ++ b2 :: post2).map (·.path)).Nodup)
    (hsame : mid1.map (·.path) = mid2.map (·.path)) (hne : mid1 ≠ []) (h : ℚ)
    (hh : headwayTime (pre1 ++ a1 :: mid1 ++ b1 :: post1) (pre2 ++ a2 :: mid2 ++ b2 :: post2)
      s s' 1 = .ok h) (d1 d2 : ℚ) (hd : h ≤ d2 - d1) :
    BlocksApart (1 / 2) (headwayK s s') d1 (timesOf mid1) d2 (timesOf mid2) ∧
      ∃ n : ℤ, h = n := by
  rw [headwayTime_eq pre1 mid1 post1 pre2 mid2 post2 a1 b1 a2 b2 s s' ha1 hb1 ha2 hb2 hpre1 hpost1
    hpre2 hpost2 hnd1 hnd2 hsame] at hh
  obtain ⟨h', hh'⟩ := (C33_defined (headwayK s s') (timesOf mid1) (timesOf mid2)).2
    (by simpa [timesOf] using hne)
  rw [hh'] at hh
  simp only [Option.getD_some, roundIf, if_true, Except.ok.injEq] at hh
  subst hh
  have hlen : (timesOf mid1).length = (timesOf mid2).length := by
    have := congrArg List.length hsame
    simpa [timesOf] using this
  refine ⟨?_, _, rfl⟩
  rw [← C33_formula (headwayK s s') (headwayK_pos s s') _ _ hlen h' hh' (1 / 2) d1 d2]
  have := (pyRound_near h').2
  linarith

/-- half a minute cannot be improved: there are passing times with which trains that keep the
rounded headway are half a minute too close -/
theorem C33_half_attained : ∃ t1 t2 : List ℚ, ∃ h, t1.length = t2.length ∧
    headwayOf 2 t1 t2 = some h ∧
    ¬ BlocksApart (1 / 4) 2 0 t1 (pyRound h : ℚ) t2 := by
  refine ⟨[1/4, 1/4], [1, 1], 1/2, rfl, by decide +kernel, ?_⟩
  rw [← C33_formula 2 (by omega) [1/4, 1/4] [1, 1] rfl (1/2) (by decide +kernel)]
  have : pyRound (1/2) = 0 := by decide +kernel
  rw [this]; norm_num

/-- a fast train on the line of `exampleLine` -/
def exampleFast : List Row :=
  [{ path := "a", station := some "A", passingTime := some 1 },
   { path := "l1", passingTime := some 1 }, { path := "l2", passingTime := some (1/2) },
   { path := "b", station := some "B", passingTime := some 1 }]

/-- the hypotheses of `C33_headway` and `C33_rounded` for a slow train followed by a fast one and
the other way round -/
example : headwayTime exampleLine exampleFast "A" "B" 0 = .ok 5 ∧
    headwayTime exampleFast exampleLine "A" "B" 0 = .ok (3/2) ∧
    headwayTime exampleFast exampleLine "A" "B" 1 = .ok 2 ∧
    (exampleLine.map (·.path)).Nodup ∧ (exampleFast.map (·.path)).Nodup ∧
    ∃ pre1 mid1 post1 pre2 mid2 post2 a1 b1 a2 b2,
      exampleLine = pre1 ++ a1 :: mid1 ++ b1 :: post1 ∧
      exampleFast = pre2 ++ a2 :: mid2 ++ b2 :: post2 ∧
      a1.station = some "A" ∧ b1.station = some "B" ∧ a2.station = some "A" ∧
      b2.station = some "B" ∧ (∀ r ∈ pre1, AtNeither "A" "B" r) ∧
      (∀ r ∈ post1, AtNeither "A" "B" r) ∧ (∀ r ∈ pre2, AtNeither "A" "B" r) ∧
      (∀ r ∈ post2, AtNeither "A" "B" r) ∧ mid1.map (·.path) = mid2.map (·.path) ∧ mid1 ≠ [] := by
  refine ⟨by decide +kernel, by decide +kernel, by decide +kernel, by decide +kernel,
    by decide +kernel, [],
    [{ path := "l1", passingTime := some 2 }, { path := "l2", passingTime := some 3 }],
    [{ path := "l3", passingTime := some 1 }], [],
    [{ path := "l1", passingTime := some 1 }, { path := "l2", passingTime := some (1/2) }], [],
    { path := "a", station := some "A", passingTime := some 1 },
    { path := "b", station := some "B", passingTime := some 1 },
    { path := "a", station := some "A", passingTime := some 1 },
    { path := "b", station := some "B", passingTime := some 1 },
    by decide +kernel, by decide +kernel, rfl, rfl, rfl, rfl, by simp, by simp [AtNeither], by simp,
    by simp, rfl, by simp⟩

/-! ## C34 -/

/-- C34, full statement: if the trains have a common block between the stations which the first one
passes in a positive time, the headway is positive. -/
def C34_statement (tt1 tt2 : List Row) (s s' : String) : Prop :=
  ∀ h b t, headwayTime tt1 tt2 s s' 0 = .ok h →
    b ∈ (blocksBetween tt1 s s').1 → b ∈ (blocksBetween tt2 s s').1 →
    getPassingTimeBlock b tt1 = .ok t → 0 < t → 0 < h

/-- C34 holds if the last block of the first train before the second station is used by the second
one, and the first train passes every common block in a positive time. Missing: common blocks that
are followed by a block of the first train only, or that are passed in no time. -/
theorem C34_positive_partial (tt1 tt2 : List Row) (s s' : String)
    (hlast : ∀ x, (blocksBetween tt1 s s').1.getLast? = some x → x ∈ (blocksBetween tt2 s s').1)
    (hpos : ∀ b ∈ (blocksBetween tt1 s s').1, b ∈ (blocksBetween tt2 s s').1 →
      ∀ t, getPassingTimeBlock b tt1 = .ok t → 0 < t) :
    C34_statement tt1 tt2 s s' := by
  intro h b t hh hb1 hb2 _ _
  have hcp : commonPath tt1 tt2 s s' =
      (blocksBetween tt1 s s').1.filter fun b => decide (b ∈ (blocksBetween tt2 s s').1) :=
    C46_common_path_partial tt1 tt2 s s' hlast
  obtain ⟨t1, h1, hh⟩ := bind_ok hh
  obtain ⟨t2, h2, hh⟩ := bind_ok hh
  simp only [roundIf, Except.ok.injEq] at hh
  rw [if_neg (by decide)] at hh
  have hf := mapPy_forall₂ h1
  have hpos1 : ∀ y ∈ t1, 0 < y := by
    intro y hy
    obtain ⟨c, hc, hcy⟩ := forall₂_right hf hy
    rw [hcp, List.mem_filter] at hc
    exact hpos c hc.1 (by simpa using hc.2) y hcy
  have hne : t1 ≠ [] := by
    rintro rfl
    have := hf.length_eq
    rw [hcp] at this
    have hm : b ∈ (blocksBetween tt1 s s').1.filter
        fun b => decide (b ∈ (blocksBetween tt2 s s').1) :=
      List.mem_filter.2 ⟨hb1, by simpa using hb2⟩
    rw [List.length_nil, List.length_eq_zero_iff] at this
    rw [this] at hm; cases hm
  obtain ⟨m, hm⟩ := (C33_defined (headwayK s s') t1 t2).2 hne
  rw [hm] at hh
  simp only [Option.getD_some] at hh
  subst hh
  by_contra hc
  push Not at hc
  have hall := (max?_le (show _ = some m from hm) 0).1 hc
  have h0 := hall (((t1.drop 0).take (headwayK s s')).sum +
      ((List.range 0).map fun i => t1.getD i 0 - t2.getD i 0).sum)
    (List.mem_map.2 ⟨0, List.mem_range.2 (List.length_pos_of_ne_nil hne), rfl⟩)
  cases t1 with
  | nil => exact hne rfl
  | cons y ys =>
    obtain ⟨k, hk⟩ : ∃ k, headwayK s s' = k + 1 := ⟨_, (Nat.succ_pred (headwayK_pos s s').ne').symm⟩
    rw [hk] at h0
    simp only [List.drop_zero, List.take_succ_cons, List.sum_cons, List.range_zero, List.map_nil,
      List.sum_nil, add_zero] at h0
    have hy := hpos1 y List.mem_cons_self
    have hs : 0 ≤ (ys.take k).sum := List.sum_nonneg fun z hz =>
      (hpos1 z (List.mem_cons_of_mem _ (List.mem_of_mem_take hz))).le
    linarith

/-- the two trains of `exampleFork1`, `exampleFork2` -/
def forkTrains : Trains := [(1, ([], exampleFork1)), (2, ([], exampleFork2))]

set_option synthInstance.maxSize 1000 in
/-- C34 is false of the code: the two trains both run from `A` to `B` (so they are in
`Jd["A"]["B"]`) and share the block `l1`, which takes 2 minutes, but the tabulated headway is 0. -/
theorem C34_false : (jd forkTrains [("A", ["a"]), ("B", ["b"])] none =
      .ok [("A", [("B", [[1], [2]])]), ("B", [])]) ∧
    (∃ d, getTausHeadway forkTrains [("A", ["a"]), ("B", ["b"])] 0 = .ok d ∧
      Dict.get? d "1_2_A_B" = some 0) ∧
    ¬ C34_statement exampleFork1 exampleFork2 "A" "B" := by
  refine ⟨by decide +kernel, ⟨[("1_2_A_B", 0), ("2_1_A_B", 0)], by decide +kernel,
    by decide +kernel⟩, ?_⟩
  intro h
  have := h 0 "l1" 2 (by decide +kernel) (by decide +kernel) (by decide +kernel) (by decide +kernel)
    (by norm_num)
  exact absurd this (by norm_num)

/-- the hypotheses of `C34_positive_partial` for two trains on different paths -/
example : (∀ x, (blocksBetween exampleMerge "A" "B").1.getLast? = some x →
      x ∈ (blocksBetween exampleMerge2 "A" "B").1) ∧
    (blocksBetween exampleMerge "A" "B").1 = ["l1", "l3"] ∧
    getPassingTimeBlock "l1" exampleMerge = .ok 2 ∧
    getPassingTimeBlock "l3" exampleMerge = .ok 3 ∧
    headwayTime exampleMerge exampleMerge2 "A" "B" 0 = .ok 3 := by
  refine ⟨?_, by decide +kernel, by decide +kernel, by decide +kernel, by decide +kernel⟩
  have : (blocksBetween exampleMerge "A" "B").1.getLast? = some "l3" := by decide +kernel
  rw [this]
  intro x hx; cases hx
  decide +kernel

end Verif
