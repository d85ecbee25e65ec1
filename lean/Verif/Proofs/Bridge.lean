import Verif.Proofs.Values
import Verif.Spec.Rules

/-!
# The helper functions of the model against the specification
-/

namespace Verif

theorem index_ok {α : Type} [DecidableEq α] {xs : List α} {x : α} {k : Nat} :
    index xs x = .ok k ↔ ∃ l r, xs = l ++ x :: r ∧ x ∉ l ∧ l.length = k := by
  induction xs generalizing k with
  | nil => simp [index]
  | cons a xs ih =>
    simp only [index]
    split
    · rename_i h; subst h
      constructor
      · intro h; cases h; exact ⟨[], xs, rfl, by simp, rfl⟩
      · rintro ⟨l, r, h1, h2, rfl⟩
        cases l with
        | nil => rfl
        | cons b l => simp at h1; simp [h1.1] at h2
    · rename_i h
      cases hi : index xs x with
      | error e =>
        simp only [reduceCtorEq, false_iff]
        rintro ⟨l, r, h1, h2, rfl⟩
        cases l with
        | nil => simp at h1; exact h h1.1
        | cons b l =>
          simp at h1
          have := (ih (k := l.length)).2 ⟨l, r, h1.2, fun hm => h2 (by simp [hm]), rfl⟩
          rw [hi] at this; cases this
      | ok n =>
        simp only [Except.ok.injEq]
        obtain ⟨l, r, h1, h2, h3⟩ := ih.1 hi
        constructor
        · rintro rfl
          exact ⟨a :: l, r, by simp [h1], by simp [h2, Ne.symm h], by simp [h3]⟩
        · rintro ⟨l', r', h1', h2', rfl⟩
          cases l' with
          | nil => simp at h1'; exact absurd h1'.1 h
          | cons b l' =>
            simp at h1'
            have := (ih (k := l'.length)).2 ⟨l', r', h1'.2, fun hm => h2' (by simp [hm]), rfl⟩
            rw [hi] at this; cases this; simp

theorem index_mem {α : Type} [DecidableEq α] {xs : List α} {x : α} :
    (∃ k, index xs x = .ok k) ↔ x ∈ xs := by
  constructor
  · rintro ⟨k, h⟩
    obtain ⟨l, r, rfl, _⟩ := index_ok.1 h
    simp
  · intro h
    induction xs with
    | nil => cases h
    | cons a xs ih =>
      simp only [index]
      split
      · exact ⟨_, rfl⟩
      · rename_i hne
        rcases List.mem_cons.1 h with rfl | h
        · exact absurd rfl hne
        · obtain ⟨k, hk⟩ := ih h
          rw [hk]; exact ⟨_, rfl⟩

theorem previousStation_iff {path : List Val} {s p : Val} :
    previousStation path s = .ok p ↔ PrevOn path s p := by
  unfold previousStation PrevOn
  cases hi : index path s with
  | error e =>
    have hnm : s ∉ path := fun hm => by
      obtain ⟨k, hk⟩ := index_mem.2 hm
      rw [hi] at hk; cases hk
    simp only [reduceCtorEq, false_iff, not_or]
    constructor
    · rintro ⟨l, r, rfl, _⟩; exact hnm (by simp)
    · rintro ⟨r, rfl, _⟩; exact hnm (by simp)
  | ok k =>
    obtain ⟨l, r, rfl, h2, rfl⟩ := index_ok.1 hi
    have uniq : ∀ {l' r'}, l ++ s :: r = l' ++ s :: r' → s ∉ l' → l = l' := by
      intro l' r' h hn
      have := (index_ok (k := l'.length)).2 ⟨l', r', h, hn, rfl⟩
      rw [hi] at this
      have hlen : l.length = l'.length := by simpa using this
      exact List.append_inj_left h hlen
    simp only
    split
    · rename_i h0
      have : l = [] := List.length_eq_zero_iff.1 h0
      subst this
      constructor
      · intro h; cases h; exact .inr ⟨r, rfl, rfl⟩
      · rintro (⟨l', r', h, hn, hne⟩ | ⟨r', _, rfl⟩)
        · have := uniq (l' := l' ++ [p]) (r' := r') (by simpa using h)
            (by simp [hn, Ne.symm hne])
          simp at this
        · rfl
    · rename_i h0
      obtain ⟨l0, q, rfl⟩ : ∃ l0 q, l = l0 ++ [q] := by
        rcases List.eq_nil_or_concat l with rfl | ⟨l0, q, h⟩
        · simp at h0
        · exact ⟨l0, q, by simpa using h⟩
      have hq : nth (l0 ++ [q] ++ s :: r) ((l0 ++ [q]).length - 1) = .ok q := by
        unfold nth; simp
      rw [hq]
      simp only [Except.ok.injEq]
      simp only [List.mem_append, List.mem_singleton, not_or] at h2
      constructor
      · rintro rfl
        exact .inl ⟨l0, r, by simp, h2.1, Ne.symm h2.2⟩
      · rintro (⟨l', r', h, hn, hne⟩ | ⟨r', h, _⟩)
        · have := uniq (l' := l' ++ [p]) (r' := r') (by simpa using h)
            (by simp [hn, Ne.symm hne])
          simpa using (List.append_inj_right' this rfl)
        · cases l0 with
          | nil => simp at h; exact absurd h.1.symm h2.2
          | cons b l0 => simp at h h2; exact absurd h.1.symm h2.1.1

theorem prevOn_unique {path : List Val} {s p q : Val} (h1 : PrevOn path s p) (h2 : PrevOn path s q) :
    p = q := by
  rw [← previousStation_iff] at h1 h2
  rw [h1] at h2; cases h2; rfl

theorem prevOf_iff {ts : TrainSets} {j s p : Val} :
    PrevOf ts j s p ↔ ∃ path, Dict.at! ts.paths j = .ok path ∧ previousStation path s = .ok p := by
  unfold PrevOf
  simp only [Dict.at!_ok, previousStation_iff]

theorem prevOf_unique {ts : TrainSets} {j s p q : Val} (h1 : PrevOf ts j s p)
    (h2 : PrevOf ts j s q) : p = q := by
  obtain ⟨p1, a1, b1⟩ := h1
  obtain ⟨p2, a2, b2⟩ := h2
  rw [a1] at a2; cases a2
  exact prevOn_unique b1 b2

theorem tauHeadway_ok {tt : Timetable} {j jp s sp : Val} {h : ℚ} :
    tauHeadway tt j jp s sp = .ok h ↔ Headway tt j jp s sp h := Dict.at!_ok
theorem tauPass_ok {tt : Timetable} {j s sp : Val} {h : ℚ} :
    tauPass tt j s sp = .ok h ↔ Pass tt j s sp h := Dict.at!_ok
theorem tauStop_ok {tt : Timetable} {j s : Val} {h : ℚ} :
    tauStop tt j s = .ok h ↔ Stop tt j s h := Dict.at!_ok
theorem tauPrep_ok {tt : Timetable} {j s : Val} {h : ℚ} :
    tauPrep tt j s = .ok h ↔ Prep tt j s h := Dict.at!_ok
theorem tauRes_ok {tt : Timetable} {r : ℚ} : tauRes tt = .ok r ↔ Res tt r := by
  unfold tauRes Res; split <;> simp_all

theorem occursAsPair_iff {a b : Val} {vv : List (List Val)} :
    occursAsPair a b vv = true ↔ ∃ g ∈ vv, a ∈ g ∧ b ∈ g ∧ a ≠ b := by
  induction vv with
  | nil => simp [occursAsPair]
  | cons v vv ih =>
    simp only [occursAsPair]
    split
    · rename_i h; simp [h]
    · rename_i h
      rw [ih]
      constructor
      · rintro ⟨g, hg, h⟩; exact ⟨g, List.mem_cons_of_mem _ hg, h⟩
      · rintro ⟨g, hg, h'⟩
        rcases List.mem_cons.1 hg with rfl | hg
        · exact absurd h' h
        · exact ⟨g, hg, h'⟩

theorem sameStock_iff {ts : TrainSets} {j jp : Val} :
    notTheSameRollingStock j jp ts = true ↔ ¬ SameStock ts j jp := by
  unfold notTheSameRollingStock SameStock
  rw [Bool.not_eq_true', ← Bool.not_eq_true, List.any_eq_true]
  apply not_congr
  constructor
  · rintro ⟨e, he, h⟩
    rw [occursAsPair_iff] at h
    obtain ⟨g, hg, h1, h2, h3⟩ := h
    obtain ⟨p, hp, rfl⟩ := List.mem_map.1 hg
    refine ⟨h3, e, he, ?_⟩
    obtain ⟨a, b⟩ := p
    simp only [List.mem_cons, List.not_mem_nil, or_false] at h1 h2
    rcases h1 with rfl | rfl <;> rcases h2 with rfl | rfl
    · exact absurd rfl h3
    · exact .inl hp
    · exact .inr hp
    · exact absurd rfl h3
  · rintro ⟨h3, e, he, h⟩
    refine ⟨e, he, occursAsPair_iff.2 ?_⟩
    rcases h with h | h
    · exact ⟨[j, jp], List.mem_map.2 ⟨_, h, rfl⟩, by simp, by simp, h3⟩
    · exact ⟨[jp, j], List.mem_map.2 ⟨_, h, rfl⟩, by simp, by simp, h3⟩

theorem skipStation_iff {ts : TrainSets} {j s : Val} :
    skipStation j s ts = true ↔ Skips ts j s := by
  unfold skipStation Skips
  split
  · rename_i h; simp [h]
  · rename_i d h
    split
    · rename_i h2; simp [h, h2]
    · rename_i x h2
      simp only [h, Option.some.injEq, exists_eq_left', h2]
      split <;> simp_all [eq_comm]

theorem firstWith_iff {ps : List (Val × Val)} {f g : Val × Val → Val} {j x : Val} (hx : x ≠ .none) :
    firstWith ps f g j = x ↔ ∃ p, ps.find? (fun p => f p = j) = some p ∧ g p = x := by
  induction ps with
  | nil => simp [firstWith, Ne.symm hx]
  | cons p ps ih =>
    simp only [firstWith, List.find?_cons]
    split
    · rename_i h; simp [h]
    · rename_i h; simp [h, ih]

theorem continuedBy_iff {ts : TrainSets} {j s jp : Val} :
    ContinuedBy ts j s jp ↔ subsequentTrainAtJround ts j s = jp ∧ jp ≠ .none := by
  unfold ContinuedBy subsequentTrainAtJround
  split
  · rename_i h
    simp only [h, reduceCtorEq, false_and, exists_const, false_iff, not_and, not_not]
    exact fun h => h.symm
  · rename_i ps h
    simp only [h, Option.some.injEq, exists_eq_left']
    refine and_congr_left fun hne => ?_
    rw [firstWith_iff hne]
    constructor
    · intro h; exact ⟨_, h, rfl⟩
    · rintro ⟨⟨a, b⟩, h, rfl⟩
      have := List.find?_some h
      simp at this; subst this; exact h

theorem takesOver_iff {ts : TrainSets} {j s jr : Val} :
    TakesOver ts j s jr ↔ previousTrainFromJround ts j s = jr ∧ jr ≠ .none := by
  unfold TakesOver previousTrainFromJround
  split
  · rename_i h
    simp only [h, reduceCtorEq, false_and, exists_const, false_iff, not_and, not_not]
    exact fun h => h.symm
  · rename_i ps h
    simp only [h, Option.some.injEq, exists_eq_left']
    refine and_congr_left fun hne => ?_
    rw [firstWith_iff hne]
    constructor
    · intro h; exact ⟨_, h, rfl⟩
    · rintro ⟨⟨a, b⟩, h, rfl⟩
      have := List.find?_some h
      simp at this; subst this; exact h

theorem addSwitchRes_iff {ts : TrainSets} {tt : Timetable} {s : Val} {r : ℚ} :
    addSwitchRes s tt ts = .ok r ↔ ExtraRes ts tt s r := by
  unfold addSwitchRes ExtraRes
  split
  · rename_i h; simp [h, eq_comm]
  · rename_i l h
    split
    · rename_i hm; simp [h, hm, tauRes_ok]
    · rename_i hm; simp [h, hm, eq_comm]

theorem sameGroupJd_iff {ts : TrainSets} {j jp sp s : Val} {d : Dict Val (List (List Val))}
    {gs : List (List Val)} (hd : Dict.get? ts.Jd sp = some d) (hg : Dict.get? d s = some gs) :
    occursAsPair j jp gs = true ↔ SameGroupJd ts j jp sp s := by
  rw [occursAsPair_iff]
  unfold SameGroupJd
  constructor
  · intro h; exact ⟨d, gs, hd, hg, h⟩
  · rintro ⟨d', gs', h1, h2, h⟩
    rw [hd] at h1; cases h1
    rw [hg] at h2; cases h2
    exact h

theorem canMO_iff {ts : TrainSets} {j jp s : Val} {b : Bool} (h : canMOonLine j jp s ts = .ok b) :
    b = true ↔ MayOvertake ts j jp s := by
  unfold canMOonLine at h
  obtain ⟨pj, hpj, h⟩ := bind_ok h
  obtain ⟨sp, hsp, h⟩ := bind_ok h
  obtain ⟨pjp, hpjp, h⟩ := bind_ok h
  obtain ⟨spp, hspp, h⟩ := bind_ok h
  have e1 : PrevOf ts j s sp := prevOf_iff.2 ⟨pj, hpj, hsp⟩
  have e2 : PrevOf ts jp s spp := prevOf_iff.2 ⟨pjp, hpjp, hspp⟩
  unfold MayOvertake
  split at h
  · rename_i h0; cases h
    simp only [List.isEmpty_iff] at h0
    simp [h0]
  · rename_i h0
    simp only [List.isEmpty_iff] at h0
    split at h
    · rename_i h1; cases h
      simp only [Bool.false_eq_true, false_iff, not_and, not_exists]
      intro _ p pp h2 h3
      rw [prevOf_unique h2 e1, prevOf_unique h3 e2]
      tauto
    · rename_i h1
      rw [not_or] at h1
      split at h
      · rename_i h2; cases h
        simp only [true_iff]
        exact ⟨h0, sp, spp, e1, e2, h1.1, h1.2, .inl h2⟩
      · rename_i h2
        rw [not_not] at h2; subst h2
        obtain ⟨d, hd, h⟩ := bind_ok h
        obtain ⟨g, hg, h⟩ := bind_ok h
        rw [Dict.at!_ok] at hd hg
        have hoc := sameGroupJd_iff (j := j) (jp := jp) hd hg
        split at h
        · rename_i ho; cases h
          simp only [Bool.false_eq_true, false_iff, not_and, not_exists]
          intro _ p pp h2 h3 _ _
          rw [prevOf_unique h2 e1, prevOf_unique h3 e2]
          have := hoc.1 ho
          tauto
        · rename_i ho; cases h
          simp only [true_iff]
          refine ⟨h0, sp, sp, e1, e2, h1.1, h1.1, .inr fun hc => ho (hoc.2 hc)⟩

theorem entering_iff {ts : TrainSets} {s j jp : Val} :
    enteringViaSameSwitches ts s j jp = true ↔ EnterTogether ts j jp s := by
  unfold enteringViaSameSwitches EnterTogether
  split
  · rename_i h; simp [h]
  · rename_i v h; simp [h]

/-! ## Readings of order variables are precedences -/

/-- reading of a precedence from a pair of places in the dictionary -/
def FirstP (y : OrderVars) (σ : LpVar → ℚ) (p q : OPath) : Prop :=
  (∃ v, findP y p = some v ∧ σ v = 1) ∨ (∃ v, findP y q = some v ∧ σ v = 0)

theorem first3_iff {y : OrderVars} {σ : LpVar → ℚ} {j jp s : Val} :
    First3 y σ j jp s ↔ FirstP y σ (j, jp, oneStation, s) (jp, j, oneStation, s) := by
  simp [First3, FirstP, findP, at4_ok]
theorem first4_iff {y : OrderVars} {σ : LpVar → ℚ} {j jp s sp : Val} :
    First4 y σ j jp s sp ↔ FirstP y σ (j, jp, s, sp) (jp, j, sp, s) := by
  simp [First4, FirstP, findP, at4_ok]
theorem firstIn_iff {y : OrderVars} {σ : LpVar → ℚ} {j jp s : Val} :
    FirstIn y σ j jp s ↔ FirstP y σ (inKey, j, jp, s) (inKey, jp, j, s) := by
  simp [FirstIn, FirstP, findP, at4_ok]

theorem getP_one {y : OrderVars} {p q : OPath} (hnb : ¬ (findP y p ≠ .none ∧ findP y q ≠ .none))
    {e : LinExpr} (he : getP y p q = .ok e) (σ : LpVar → ℚ) :
    e.eval σ = 1 ↔ FirstP y σ p q := by
  unfold getP at he
  split at he
  · rename_i h
    rw [check4_iff] at h
    obtain ⟨v, hv, he⟩ := bind_ok he; cases he
    rw [at4_ok] at hv
    have hq : findP y q = .none := by
      by_contra hq; exact hnb ⟨h, hq⟩
    have hp : findP y p = some v := hv
    simp [FirstP, hq, hp]
  · rename_i h
    rw [check4_iff, not_not] at h
    obtain ⟨v, hv, he⟩ := bind_ok he; cases he
    rw [at4_ok] at hv
    have hp : findP y p = .none := h
    have hq : findP y q = some v := hv
    simp [FirstP, hq, hp]

theorem getP_zero {y : OrderVars} {p q : OPath} (hnb : ¬ (findP y p ≠ .none ∧ findP y q ≠ .none))
    {e : LinExpr} (he : getP y p q = .ok e) (σ : LpVar → ℚ) :
    e.eval σ = 0 ↔ FirstP y σ q p := by
  unfold getP at he
  split at he
  · rename_i h
    rw [check4_iff] at h
    obtain ⟨v, hv, he⟩ := bind_ok he; cases he
    rw [at4_ok] at hv
    have hq : findP y q = .none := by
      by_contra hq; exact hnb ⟨h, hq⟩
    have hp : findP y p = some v := hv
    simp [FirstP, hq, hp]
  · rename_i h
    rw [check4_iff, not_not] at h
    obtain ⟨v, hv, he⟩ := bind_ok he; cases he
    rw [at4_ok] at hv
    have hp : findP y p = .none := h
    have hq : findP y q = some v := hv
    simp only [eval_oneMinus, FirstP, hq, hp, Option.some.injEq, exists_eq_left', reduceCtorEq,
      false_and, exists_false, or_false]
    constructor <;> intro h <;> linarith

end Verif
