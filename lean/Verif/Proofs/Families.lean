import Verif.Proofs.Delay

/-!
# Each family of constraints against its dispatching rule
-/

namespace Verif

/-! ## Big-M -/

theorem bigM {lhs rhs dmax d d' y : ℚ} (hd : 0 ≤ d ∧ d ≤ dmax) (hd' : 0 ≤ d' ∧ d' ≤ dmax)
    (hy : y = 0 ∨ y = 1) :
    rhs + d' - getM lhs rhs dmax * y ≤ lhs + d ↔ (y = 0 → rhs + d' ≤ lhs + d) := by
  rcases hy with rfl | rfl
  · simp
  · have := le_max_left (rhs + dmax - lhs) 1
    simp only [one_ne_zero, false_implies, iff_true, getM, mul_one]
    linarith [hd.1, hd'.2]

theorem dropped {lhs rhs dmax d d' : ℚ} (hd : 0 ≤ d) (hd' : d' ≤ dmax)
    (h : ¬ lhs - dmax < rhs) : rhs + d' ≤ lhs + d := by
  linarith [not_lt.1 h]

/-! ## Emitted constraints -/

/-- the builder succeeds -/
def Oks (m : Py (List Named)) : Prop := ∃ cs, m = .ok cs
/-- the builder succeeds and all emitted constraints hold -/
def AllHold (σ : LpVar → ℚ) (m : Py (List Named)) : Prop := ∃ cs, m = .ok cs ∧ ∀ c ∈ cs, c.2.Holds σ

theorem allHold_ok (σ : LpVar → ℚ) (cs : List Named) :
    AllHold σ (.ok cs) ↔ ∀ c ∈ cs, c.2.Holds σ := by simp [AllHold]
theorem allHold_nil (σ : LpVar → ℚ) : AllHold σ (.ok []) := by simp [AllHold]
theorem allHold_single (σ : LpVar → ℚ) (n : String) (c : Constraint) :
    AllHold σ (.ok [(n, c)]) ↔ c.Holds σ := by simp [AllHold]
theorem oks_ok (cs : List Named) : Oks (.ok cs) := ⟨cs, rfl⟩

theorem oks_collect {α : Type} {xs : List α} {f : α → Py (List Named)} :
    Oks (collect xs f) ↔ ∀ x ∈ xs, Oks (f x) := by
  induction xs with
  | nil => simp [collect, Oks]
  | cons x xs ih =>
    rw [List.forall_mem_cons, ← ih]
    simp only [collect, Oks]
    cases f x with
    | error e => simp
    | ok a => cases collect xs f <;> simp

theorem allHold_collect {α : Type} {σ : LpVar → ℚ} {xs : List α} {f : α → Py (List Named)} :
    AllHold σ (collect xs f) ↔ ∀ x ∈ xs, AllHold σ (f x) := by
  induction xs with
  | nil => simp [collect, AllHold]
  | cons x xs ih =>
    rw [List.forall_mem_cons, ← ih]
    simp only [collect, AllHold]
    cases f x with
    | error e => simp
    | ok a =>
      cases collect xs f with
      | error e => simp
      | ok b =>
        simp only [Except.ok.injEq, exists_eq_left']
        constructor
        · intro h
          exact ⟨fun c hc => h c (List.mem_append_left _ hc),
            fun c hc => h c (List.mem_append_right _ hc)⟩
        · rintro ⟨h1, h2⟩ c hc
          exact (List.mem_append.1 hc).elim (h1 c) (h2 c)

theorem oks_append {m n : Py (List Named)} :
    Oks (do let a ← m; let b ← n; .ok (a ++ b)) ↔ Oks m ∧ Oks n := by
  unfold Oks
  cases m with
  | error e => simp [bind, Except.bind]
  | ok a => cases n <;> simp [bind, Except.bind]

theorem allHold_append {σ : LpVar → ℚ} {m n : Py (List Named)} :
    AllHold σ (do let a ← m; let b ← n; .ok (a ++ b)) ↔ AllHold σ m ∧ AllHold σ n := by
  unfold AllHold
  cases m with
  | error e => simp [bind, Except.bind]
  | ok a =>
    cases n with
    | error e => simp [bind, Except.bind]
    | ok b =>
      simp only [bind, Except.bind, Except.ok.injEq, exists_eq_left']
      constructor
      · intro h
        exact ⟨fun c hc => h c (List.mem_append_left _ hc),
          fun c hc => h c (List.mem_append_right _ hc)⟩
      · rintro ⟨h1, h2⟩ c hc
        exact (List.mem_append.1 hc).elim (h1 c) (h2 c)

theorem AllHold.oks {σ : LpVar → ℚ} {m : Py (List Named)} (h : AllHold σ m) : Oks m := by
  obtain ⟨cs, h, _⟩ := h; exact ⟨cs, h⟩

/-! ## Setting -/

/-- what is known while the constraints are built -/
structure Setting (ts : TrainSets) (dmax : ℚ) (cat : Cat) (dv : DelayVars) (y : OrderVars)
    (σ : LpVar → ℚ) : Prop where
  hdv : delayVariables ts dmax cat = .ok dv
  hy : orderVariables ts = .ok y
  hn : NamesOK ts
  hd : ∀ j s v, delayAt dv j s = .ok v → InDomain v (σ v)
  ho : ∀ a b c d v, at4 y a b c d = .ok v → InDomain v (σ v)

section
variable {ts : TrainSets} {tt : Timetable} {dmax : ℚ} {cat : Cat} {dv : DelayVars} {y : OrderVars}
  {σ : LpVar → ℚ} (S : Setting ts dmax cat dv y σ)
include S

theorem Setting.bounds {j s : Val} {v : LpVar} (hv : delayAt dv j s = .ok v) :
    0 ≤ σ v ∧ σ v ≤ dmax := delay_bounds S.hdv S.hd hv

theorem Setting.zero3 {j jp s : Val} (hj : j ≠ inKey) (hne : j ≠ jp) {e : LinExpr}
    (he : getY3 y j jp s = .ok e) : e.eval σ = 0 ↔ First3 y σ jp j s := by
  rw [first3_iff]
  exact getP_zero (noBoth3 S.hn S.hy s hj hne) (getY3_eq y j jp s ▸ he) σ

theorem Setting.one3 {j jp s : Val} (hj : j ≠ inKey) (hne : j ≠ jp) {e : LinExpr}
    (he : getY3 y j jp s = .ok e) : e.eval σ = 1 ↔ First3 y σ j jp s := by
  rw [first3_iff]
  exact getP_one (noBoth3 S.hn S.hy s hj hne) (getY3_eq y j jp s ▸ he) σ

theorem Setting.zero4 {j jp s sp : Val} (hj : j ≠ inKey) (hs : s ≠ oneStation)
    (hne : ¬ (j = jp ∧ s = sp)) {e : LinExpr}
    (he : getY4singleline y j jp s sp = .ok e) : e.eval σ = 0 ↔ First4 y σ jp j sp s := by
  rw [first4_iff]
  exact getP_zero (noBoth4 S.hn S.hy hj hs hne) (getY4_eq y j jp s sp ▸ he) σ

theorem Setting.one4 {j jp s sp : Val} (hj : j ≠ inKey) (hs : s ≠ oneStation)
    (hne : ¬ (j = jp ∧ s = sp)) {e : LinExpr}
    (he : getY4singleline y j jp s sp = .ok e) : e.eval σ = 1 ↔ First4 y σ j jp s sp := by
  rw [first4_iff]
  exact getP_one (noBoth4 S.hn S.hy hj hs hne) (getY4_eq y j jp s sp ▸ he) σ

theorem Setting.zeroIn {j jp s : Val} (hne : j ≠ jp) {e : LinExpr}
    (he : getY4in y inKey j jp s = .ok e) : e.eval σ = 0 ↔ FirstIn y σ jp j s := by
  rw [firstIn_iff]
  exact getP_zero (noBothIn S.hn S.hy s hne) (getY4in_eq y inKey j jp s ▸ he) σ

theorem Setting.oneIn {j jp s : Val} (hne : j ≠ jp) {e : LinExpr}
    (he : getY4in y inKey j jp s = .ok e) : e.eval σ = 1 ↔ FirstIn y σ j jp s := by
  rw [firstIn_iff]
  exact getP_one (noBothIn S.hn S.hy s hne) (getY4in_eq y inKey j jp s ▸ he) σ

/-! ## Headway -/

theorem minimalSpanConstrain_iff {s sp j jp : Val} (hjp : jp ≠ inKey) (hne : j ≠ jp)
    (hok : Oks (minimalSpanConstrain s sp j jp tt dv y ts dmax)) :
    AllHold σ (minimalSpanConstrain s sp j jp tt dv y ts dmax) ↔
      (First3 y σ j jp s → ∀ t tp h, Departs ts tt dv σ j s t → Departs ts tt dv σ jp s tp →
        Headway tt j jp s sp h → t + h ≤ tp) := by
  obtain ⟨cs, hok⟩ := hok
  rw [hok]
  unfold minimalSpanConstrain at hok
  obtain ⟨lhs, hl, hok⟩ := bind_ok hok
  obtain ⟨e, he, hok⟩ := bind_ok hok
  obtain ⟨h, hh, hok⟩ := bind_ok hok
  rw [tauHeadway_ok] at hh
  simp only at hok
  split at hok
  · obtain ⟨dl, hdl, hok⟩ := bind_ok hok
    obtain ⟨dr, hdr, hok⟩ := bind_ok hok
    obtain ⟨yv, hyv, hok⟩ := bind_ok hok
    cases hok
    rw [allHold_single, Constraint.holds_mkGE]
    simp only [LinExpr.eval_sub, LinExpr.eval_add, LinExpr.eval_num, LinExpr.eval_var,
      LinExpr.eval_smul]
    rw [bigM (S.bounds hdl) (S.bounds hdr) (getY3_val S.hy S.ho hyv),
      S.zero3 hjp (Ne.symm hne) hyv]
    refine imp_congr_right fun _ => ?_
    constructor
    · rintro hle t tp h' ⟨e1, v1, a1, b1, rfl⟩ ⟨e2, v2, a2, b2, rfl⟩ hh'
      rw [he] at a1; cases a1
      rw [hl] at a2; cases a2
      rw [hdr] at b1; cases b1
      rw [hdl] at b2; cases b2
      unfold Headway at hh hh'
      rw [hh] at hh'; cases hh'
      linarith
    · intro hall
      have := hall _ _ h ⟨e, dr, he, hdr, rfl⟩ ⟨lhs, dl, hl, hdl, rfl⟩ hh
      linarith
  · rename_i hdrop
    cases hok
    refine iff_of_true (allHold_nil σ) ?_
    rintro _ t tp h' ⟨e1, v1, a1, b1, rfl⟩ ⟨e2, v2, a2, b2, rfl⟩ hh'
    rw [he] at a1; cases a1
    rw [hl] at a2; cases a2
    unfold Headway at hh hh'
    rw [hh] at hh'; cases hh'
    have := dropped (S.bounds b2).1 (S.bounds b1).2 hdrop
    linarith

/-! ## Single line -/

theorem singleLineConstrain_iff {s sp j jp : Val} (hj : j ≠ inKey) (hs : s ≠ oneStation)
    (hne : ¬ (j = jp ∧ s = sp))
    (hok : Oks (singleLineConstrain s sp j jp tt dv y ts dmax)) :
    AllHold σ (singleLineConstrain s sp j jp tt dv y ts dmax) ↔
      (First4 y σ jp j sp s → ∀ t tp h, Departs ts tt dv σ j s t → Departs ts tt dv σ jp sp tp →
        Pass tt jp sp s h → tp + h ≤ t) := by
  obtain ⟨cs, hok⟩ := hok
  rw [hok]
  unfold singleLineConstrain at hok
  obtain ⟨lhs, hl, hok⟩ := bind_ok hok
  obtain ⟨e, he, hok⟩ := bind_ok hok
  obtain ⟨h, hh, hok⟩ := bind_ok hok
  rw [tauPass_ok] at hh
  simp only at hok
  split at hok
  · obtain ⟨dl, hdl, hok⟩ := bind_ok hok
    obtain ⟨dr, hdr, hok⟩ := bind_ok hok
    obtain ⟨yv, hyv, hok⟩ := bind_ok hok
    cases hok
    rw [allHold_single, Constraint.holds_mkGE]
    simp only [LinExpr.eval_sub, LinExpr.eval_add, LinExpr.eval_num, LinExpr.eval_var,
      LinExpr.eval_smul]
    rw [bigM (S.bounds hdl) (S.bounds hdr) (getY4_val S.hy S.ho hyv), S.zero4 hj hs hne hyv]
    refine imp_congr_right fun _ => ?_
    constructor
    · rintro hle t tp h' ⟨e1, v1, a1, b1, rfl⟩ ⟨e2, v2, a2, b2, rfl⟩ hh'
      rw [hl] at a1; cases a1
      rw [he] at a2; cases a2
      rw [hdl] at b1; cases b1
      rw [hdr] at b2; cases b2
      unfold Pass at hh hh'
      rw [hh] at hh'; cases hh'
      linarith
    · intro hall
      have := hall _ _ h ⟨lhs, dl, hl, hdl, rfl⟩ ⟨e, dr, he, hdr, rfl⟩ hh
      linarith
  · rename_i hdrop
    cases hok
    refine iff_of_true (allHold_nil σ) ?_
    rintro _ t tp h' ⟨e1, v1, a1, b1, rfl⟩ ⟨e2, v2, a2, b2, rfl⟩ hh'
    rw [hl] at a1; cases a1
    rw [he] at a2; cases a2
    unfold Pass at hh hh'
    rw [hh] at hh'; cases hh'
    have := dropped (S.bounds b1).1 (S.bounds b2).2 hdrop
    linarith

/-! ## Circulation -/

theorem circBody_iff {s j jp : Val} (hok : Oks (circBody s j jp tt dv ts dmax)) :
    AllHold σ (circBody s j jp tt dv ts dmax) ↔
      (∀ p, PrevOf ts j s p → ∀ t tp w pr, Departs ts tt dv σ j p t → Departs ts tt dv σ jp s tp →
        Pass tt j p s w → Prep tt jp s pr → t + w + pr ≤ tp) := by
  obtain ⟨cs, hok⟩ := hok
  rw [hok]
  unfold circBody at hok
  obtain ⟨path, hpath, hok⟩ := bind_ok hok
  obtain ⟨sp, hsp, hok⟩ := bind_ok hok
  obtain ⟨l, hl, hok⟩ := bind_ok hok
  obtain ⟨rhs, hr, hok⟩ := bind_ok hok
  obtain ⟨w, hw, hok⟩ := bind_ok hok
  obtain ⟨pr, hpr, hok⟩ := bind_ok hok
  rw [tauPass_ok] at hw
  rw [tauPrep_ok] at hpr
  have hprev : PrevOf ts j s sp := prevOf_iff.2 ⟨path, hpath, hsp⟩
  simp only at hok
  split at hok
  · obtain ⟨dl, hdl, hok⟩ := bind_ok hok
    obtain ⟨dr, hdr, hok⟩ := bind_ok hok
    cases hok
    rw [allHold_single, Constraint.holds_mkGE]
    simp only [LinExpr.eval_add, LinExpr.eval_num, LinExpr.eval_var]
    constructor
    · rintro hle p hp t tp w' pr' ⟨e1, v1, a1, b1, rfl⟩ ⟨e2, v2, a2, b2, rfl⟩ hw' hpr'
      cases prevOf_unique hp hprev
      rw [hl] at a1; cases a1
      rw [hr] at a2; cases a2
      rw [hdl] at b1; cases b1
      rw [hdr] at b2; cases b2
      unfold Pass at hw hw'
      unfold Prep at hpr hpr'
      rw [hw] at hw'; cases hw'
      rw [hpr] at hpr'; cases hpr'
      linarith
    · intro hall
      have := hall sp hprev _ _ w pr ⟨l, dl, hl, hdl, rfl⟩ ⟨rhs, dr, hr, hdr, rfl⟩ hw hpr
      linarith
  · rename_i hdrop
    cases hok
    refine iff_of_true (allHold_nil σ) ?_
    rintro p hp t tp w' pr' ⟨e1, v1, a1, b1, rfl⟩ ⟨e2, v2, a2, b2, rfl⟩ hw' hpr'
    cases prevOf_unique hp hprev
    rw [hl] at a1; cases a1
    rw [hr] at a2; cases a2
    unfold Pass at hw hw'
    unfold Prep at hpr hpr'
    rw [hw] at hw'; cases hw'
    rw [hpr] at hpr'; cases hpr'
    have h1 := (S.bounds b2).1
    have h2 := (S.bounds b1).2
    have := not_lt.1 hdrop
    linarith

/-! ## Minimal stay -/

omit S in
theorem minimalStayConstrain_iff {j s : Val} (hok : Oks (minimalStayConstrain j s tt dv ts)) :
    AllHold σ (minimalStayConstrain j s tt dv ts) ↔
      (∀ p, PrevOf ts j s p → p ≠ .none → ∀ t tp w st, Departs ts tt dv σ j p t →
        Departs ts tt dv σ j s tp → Pass tt j p s w → Stop tt j s st → t + w + st ≤ tp) := by
  obtain ⟨cs, hok⟩ := hok
  rw [hok]
  unfold minimalStayConstrain at hok
  obtain ⟨path, hpath, hok⟩ := bind_ok hok
  obtain ⟨sp, hsp, hok⟩ := bind_ok hok
  have hprev : PrevOf ts j s sp := prevOf_iff.2 ⟨path, hpath, hsp⟩
  split at hok
  · rename_i hsn
    obtain ⟨dj, hdj, hok⟩ := bind_ok hok
    split at hok
    · rename_i d hd
      obtain ⟨lhs, hl, hok⟩ := bind_ok hok
      obtain ⟨dp, hdp, hok⟩ := bind_ok hok
      obtain ⟨e, he, hok⟩ := bind_ok hok
      obtain ⟨w, hw, hok⟩ := bind_ok hok
      obtain ⟨st, hst, hok⟩ := bind_ok hok
      rw [tauPass_ok] at hw
      rw [tauStop_ok] at hst
      cases hok
      have hdl : delayAt dv j s = .ok d := by
        unfold delayAt; rw [hdj]; exact Dict.at!_ok.2 hd
      rw [allHold_single, Constraint.holds_mkGE]
      simp only [LinExpr.eval_add, LinExpr.eval_num, LinExpr.eval_var]
      constructor
      · rintro hle p hp _ t tp w' st' ⟨e1, v1, a1, b1, rfl⟩ ⟨e2, v2, a2, b2, rfl⟩ hw' hst'
        cases prevOf_unique hp hprev
        rw [he] at a1; cases a1
        rw [hl] at a2; cases a2
        rw [hdp] at b1; cases b1
        rw [hdl] at b2; cases b2
        unfold Pass at hw hw'
        unfold Stop at hst hst'
        rw [hw] at hw'; cases hw'
        rw [hst] at hst'; cases hst'
        linarith
      · intro hall
        have := hall sp hprev hsn _ _ w st ⟨e, dp, he, hdp, rfl⟩ ⟨lhs, d, hl, hdl, rfl⟩ hw hst
        linarith
    · rename_i hd
      cases hok
      refine iff_of_true (allHold_nil σ) ?_
      rintro p hp _ t tp w' st' _ ⟨e2, v2, a2, b2, rfl⟩ hw' hst'
      rw [delayAt_ok] at b2
      rw [Dict.at!_ok] at hdj
      simp [find2, hdj, hd] at b2
  · rename_i hsn
    cases hok
    refine iff_of_true (allHold_nil σ) ?_
    intro p hp hpn
    cases prevOf_unique hp hprev
    exact absurd hpn hsn

end

end Verif
