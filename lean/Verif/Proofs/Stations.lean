import Verif.Spec.Data
import Verif.Proofs.Times
import Verif.Props.Between

/-!
# Consecutive stations of a train
-/

namespace Verif

theorem next_split {tt : List Row} {s s' : String} (hnd : OnceEach tt) :
    nextStation tt s = some s' ↔ ∃ A B, trainImportantStations tt = A ++ s :: s' :: B := by
  change (trainImportantStations tt).Nodup at hnd
  unfold nextStation
  simp only
  set l := trainImportantStations tt
  constructor
  · intro h
    split at h
    · cases h
    · split at h
      · cases h
      · rename_i h1 _
        rw [not_not] at h1
        obtain ⟨A, B, hAB, hnA⟩ := List.append_of_mem h1 |> fun ⟨A, B, h⟩ =>
          (⟨A, B, h, by
            rw [h, List.nodup_append] at hnd
            intro hm; exact hnd.2.2 s hm s (by simp) rfl⟩ : ∃ A B, l = A ++ s :: B ∧ s ∉ A)
        rw [hAB, idx_first hnA] at h
        rw [List.getElem?_append_right (by omega)] at h
        simp only [Nat.add_sub_cancel_left, List.getElem?_cons_succ] at h
        cases B with
        | nil => cases h
        | cons x B =>
          simp only [List.getElem?_cons_zero, Option.some.injEq] at h
          subst h
          exact ⟨A, B, hAB⟩
  · rintro ⟨A, B, hAB⟩
    have hnA : s ∉ A := by
      rw [hAB, List.nodup_append] at hnd
      intro hm; exact hnd.2.2 s hm s (by simp) rfl
    rw [hAB, idx_first hnA]
    rw [if_neg (by simp), if_neg (by simp)]
    rw [List.getElem?_append_right (by omega)]
    simp

theorem next_iff {tt : List Row} {s s' : String} (hnd : OnceEach tt) :
    nextStation tt s = some s' ↔ ∃ mid, Consecutive tt s s' mid := by
  rw [next_split hnd]
  unfold trainImportantStations Consecutive
  constructor
  · rintro ⟨A, B, h⟩
    rw [List.filterMap_eq_append_iff] at h
    obtain ⟨l1, l2, rfl, h1, h2⟩ := h
    rw [List.filterMap_eq_cons_iff] at h2
    obtain ⟨l3, r1, l4, rfl, h3, h4, h5⟩ := h2
    rw [List.filterMap_eq_cons_iff] at h5
    obtain ⟨l5, r2, l6, rfl, h6, h7, h8⟩ := h5
    exact ⟨l5, l1 ++ l3, r1, r2, l6, by simp, h4, h7, h6⟩
  · rintro ⟨mid, pre, r1, r2, post, rfl, h1, h2, h3⟩
    refine ⟨pre.filterMap (·.station), post.filterMap (·.station), ?_⟩
    have : mid.filterMap (·.station) = [] := by
      rw [List.filterMap_eq_nil_iff]; exact h3
    simp [h1, h2, this]

/-- the other rows of a train are at neither of the two stations -/
theorem consecutive_neither {tt : List Row} {s s' : String} {mid pre post : List Row} {r1 r2 : Row}
    (hnd : OnceEach tt) (htt : tt = pre ++ r1 :: mid ++ r2 :: post) (h1 : r1.station = some s)
    (h2 : r2.station = some s') :
    (∀ r ∈ pre, AtNeither s s' r) ∧ (∀ r ∈ post, AtNeither s s' r) := by
  unfold OnceEach at hnd
  subst htt
  simp only [List.append_assoc, List.filterMap_append, List.filterMap_cons, h1, h2] at hnd
  have memf : ∀ (l : List Row) (r : Row) (x : String), r ∈ l → r.station = some x →
      x ∈ l.filterMap (·.station) := fun l r x hr hx => List.mem_filterMap.2 ⟨r, hr, hx⟩
  constructor
  · intro r hr
    rw [List.nodup_append] at hnd
    constructor
    · intro h
      exact hnd.2.2 s (memf _ _ _ hr h) s (by simp) rfl
    · intro h
      exact hnd.2.2 s' (memf _ _ _ hr h) s' (by simp) rfl
  · intro r hr
    rw [List.nodup_append] at hnd
    have hb := hnd.2.1
    rw [List.cons_append, List.nodup_cons] at hb
    constructor
    · intro h
      apply hb.1
      have := memf _ _ _ hr h
      simp [this]
    · intro h
      have h3 := hb.2
      rw [List.nodup_append] at h3
      rw [List.nodup_cons] at h3
      exact h3.2.1.1 (memf _ _ _ hr h)

theorem consecutive_blocks {tt : List Row} {s s' : String} {mid : List Row} (hnd : OnceEach tt)
    (h : Consecutive tt s s' mid) : blocksBetween tt s s' = (mid.map (·.path), some false) := by
  obtain ⟨pre, r1, r2, post, htt, h1, h2, _⟩ := h
  obtain ⟨h3, h4⟩ := consecutive_neither hnd htt h1 h2
  rw [htt]
  exact C45_between pre mid post r1 r2 s s' h1 h2 h3 h4

theorem consecutive_mem {tt : List Row} {s s' : String} {mid : List Row}
    (h : Consecutive tt s s' mid) : ∀ r ∈ mid, r ∈ tt := by
  obtain ⟨pre, r1, r2, post, rfl, _⟩ := h
  intro r hr; simp [hr]

theorem consecutive_serves {tt : List Row} {s s' : String} {mid : List Row}
    (h : Consecutive tt s s' mid) : Serves tt s ∧ Serves tt s' := by
  obtain ⟨pre, r1, r2, post, rfl, h1, h2, _⟩ := h
  exact ⟨⟨r1, by simp, h1⟩, ⟨r2, by simp, h2⟩⟩

theorem consecutive_ne {tt : List Row} {s s' : String} {mid : List Row} (hnd : OnceEach tt)
    (h : Consecutive tt s s' mid) : s ≠ s' := by
  obtain ⟨pre, r1, r2, post, rfl, h1, h2, _⟩ := h
  unfold OnceEach at hnd
  rintro rfl
  simp only [List.append_assoc, List.filterMap_append, List.filterMap_cons, h1, h2,
    List.cons_append, List.nodup_append, List.nodup_cons] at hnd
  exact hnd.2.1.1 (by simp)

/-- for the same station, the next station and the rows between are determined -/
theorem consecutive_unique {tt : List Row} {s s1 s2 : String} {m1 m2 : List Row} (hnd : OnceEach tt)
    (h1 : Consecutive tt s s1 m1) (h2 : Consecutive tt s s2 m2) :
    s1 = s2 ∧ m1.map (·.path) = m2.map (·.path) := by
  have e1 := (next_iff hnd).2 ⟨m1, h1⟩
  have e2 := (next_iff hnd).2 ⟨m2, h2⟩
  rw [e1] at e2
  cases e2
  have b1 := consecutive_blocks hnd h1
  have b2 := consecutive_blocks hnd h2
  rw [b1] at b2
  exact ⟨rfl, congrArg Prod.fst b2⟩

/-- the blocks that come to the station map of a train -/
theorem minimalPassing_eq {tt : List Row} {s s' : String} {mid : List Row} (hnd : OnceEach tt)
    (hb : BlocksOnce tt) (hs : s ≠ "") (h : Consecutive tt s s' mid) (r : Int) :
    minimalPassingTime tt s s' r = .ok (roundIf r (timesOf mid).sum) := by
  unfold minimalPassingTime
  rw [if_neg (by
    rw [not_not]
    exact ⟨hs, mem_stations.2 (consecutive_serves h).2⟩)]
  rw [consecutive_blocks hnd h]
  simp only
  rw [passing_of_rows hb (consecutive_mem h)]
  rfl

end Verif
