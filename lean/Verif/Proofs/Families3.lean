import Verif.Proofs.Families2

/-!
# Switches
-/

namespace Verif

section
variable {ts : TrainSets} {tt : Timetable} {dmax : ℚ} {cat : Cat} {dv : DelayVars} {y : OrderVars}
  {σ : LpVar → ℚ} (S : Setting ts dmax cat dv y σ)

theorem moment_iff {s j sp p : Val} {pair : Dict Val String} {a : String} {e w m : ℚ}
    (hs : s ≠ .none) (ha : Dict.get? pair j = some a) (hin : a = "in" ∨ a = "out")
    (hsp : departureStation4switches s j pair ts = .ok sp)
    (he : earliestDepTime ts.paths tt j sp = .ok e) (hw : passTo tt j sp s = .ok w) :
    SwitchMoment ts tt (Departs ts tt dv σ) s j a p m ↔
      p = sp ∧ ∃ v, delayAt dv j sp = .ok v ∧ m = e + w + σ v := by
  unfold departureStation4switches at hsp
  rw [Dict.at!_ok.2 ha] at hsp
  simp only [bind, Except.bind] at hsp
  unfold SwitchMoment
  rcases hin with rfl | rfl
  · simp only [show ("in" = "out") = False by decide, if_false, if_true, false_and, false_or,
      true_and] at hsp ⊢
    split at hsp
    · cases hsp
    · rename_i path hpath
      have hprev : PrevOf ts j s sp := prevOf_iff.2 ⟨path, hpath, hsp⟩
      have hne : s ≠ sp := by
        rintro rfl
        obtain ⟨_, _, ⟨_, _, _, _, h⟩ | ⟨_, _, h⟩⟩ := hprev
        · exact h rfl
        · exact hs h
      unfold passTo at hw
      rw [if_pos hne, tauPass_ok] at hw
      constructor
      · rintro ⟨hp, t, w', ⟨e1, v1, a1, b1, rfl⟩, hw', rfl⟩
        cases prevOf_unique hp hprev
        rw [he] at a1; cases a1
        unfold Pass at hw hw'
        rw [hw] at hw'; cases hw'
        exact ⟨rfl, v1, b1, by ring⟩
      · rintro ⟨rfl, v, hv, rfl⟩
        exact ⟨hprev, _, w, ⟨e, v, he, hv, rfl⟩, hw, by ring⟩
  · simp only [if_true, Except.ok.injEq] at hsp
    subst hsp
    unfold passTo at hw
    simp only [ne_eq, not_true, if_false, Except.ok.injEq] at hw
    subst hw
    simp only [show ("out" = "in") = False by decide, false_and, or_false, true_and]
    constructor
    · rintro ⟨rfl, e1, v1, a1, b1, rfl⟩
      rw [he] at a1; cases a1
      exact ⟨rfl, v1, b1, by ring⟩
    · rintro ⟨rfl, v, hv, rfl⟩
      exact ⟨rfl, e, v, he, hv, by ring⟩

include S

/-- the order variable consulted by `switch_occ` reads 0 exactly when the second train is first -/
theorem switchOrderVar_zero {s j p jp pp : Val} (hj : j ≠ inKey) (hne : j ≠ jp)
    (hp : p ≠ oneStation) {e : LinExpr} (he : switchOrderVar s j p jp pp y ts = .ok e)
    (hsym : MayOvertake ts jp j s ↔ MayOvertake ts j jp s) :
    e.eval σ = 0 ↔ SwitchFirst ts (First3 y σ) (First4 y σ) (FirstIn y σ) s jp pp j p := by
  unfold switchOrderVar at he
  unfold SwitchFirst
  split at he
  · rename_i hpp
    split at he
    · rename_i hps
      obtain ⟨mo, hmo, he⟩ := bind_ok he
      have hm := canMO_iff hmo
      split at he
      · rename_i hb
        have h1 := hsym.2 (hm.1 hb)
        have hps' : ¬ pp = s := hpp ▸ hps
        rw [S.zeroIn hne he]
        simp [hpp, hps, h1]
      · rename_i hb
        have h1 : ¬ MayOvertake ts jp j s := fun h => hb (hm.2 (hsym.1 h))
        rw [S.zero3 hj hne he]
        simp [hpp, h1]
    · rename_i hps
      rw [not_not] at hps
      rw [S.zero3 hj hne he]
      simp [hpp, hps]
  · rename_i hpp
    split at he
    · rename_i hs
      rw [S.zero4 hj hp (fun h => hne h.1) he]
      simp only [hpp, false_and, ne_eq, not_false_eq_true, true_and, false_or]
      rw [or_comm] at hs
      simp only [hs.symm, true_and]
      rcases hs with hs | hs <;> simp [hs]
    · rename_i hs
      rw [not_or] at hs
      rw [S.zeroIn hne he]
      simp [hpp, hs.1, hs.2]

omit S in
theorem sameGroupJd_symm {j jp sp s : Val} (h : SameGroupJd ts j jp sp s) :
    SameGroupJd ts jp j sp s := by
  obtain ⟨d, gs, h1, h2, g, hg, h3, h4, h5⟩ := h
  exact ⟨d, gs, h1, h2, g, hg, h4, h3, Ne.symm h5⟩

omit S in
theorem mayOvertake_symm {j jp s : Val} (h : MayOvertake ts j jp s) : MayOvertake ts jp j s := by
  obtain ⟨h0, p, pp, h1, h2, h3, h4, h5⟩ := h
  refine ⟨h0, pp, p, h2, h1, h4, h3, ?_⟩
  by_cases hp : p = pp
  · subst hp
    exact .inr fun h => (h5.elim (fun h => absurd rfl h) id) (sameGroupJd_symm h)
  · exact .inl (Ne.symm hp)

theorem switchOcc_iff {s j p jp pp : Val} {pair : Dict Val String} {a b : String}
    (hs : s ≠ .none) (hj : j ≠ inKey) (hne : j ≠ jp) (hp1 : p ≠ oneStation)
    (ha : Dict.get? pair j = some a) (hb : Dict.get? pair jp = some b)
    (hia : a = "in" ∨ a = "out") (hib : b = "in" ∨ b = "out")
    (hp : departureStation4switches s j pair ts = .ok p)
    (hpp : departureStation4switches s jp pair ts = .ok pp)
    (hok : Oks (switchOcc s j p jp pp tt dv y ts dmax)) :
    AllHold σ (switchOcc s j p jp pp tt dv y ts dmax) ↔
      (∀ q m qp mp r, SwitchMoment ts tt (Departs ts tt dv σ) s j a q m →
        SwitchMoment ts tt (Departs ts tt dv σ) s jp b qp mp → Res tt r →
        SwitchFirst ts (First3 y σ) (First4 y σ) (FirstIn y σ) s jp qp j q → mp + r ≤ m) := by
  obtain ⟨cs, hok⟩ := hok
  rw [hok]
  unfold switchOcc at hok
  obtain ⟨l, hl, hok⟩ := bind_ok hok
  obtain ⟨r, hr, hok⟩ := bind_ok hok
  obtain ⟨res, hres, hok⟩ := bind_ok hok
  obtain ⟨pl, hpl, hok⟩ := bind_ok hok
  obtain ⟨pr, hpr, hok⟩ := bind_ok hok
  have m1 := fun q m => moment_iff (dv := dv) (σ := σ) (p := q) (m := m) hs ha hia hp hl hpl
  have m2 := fun q m => moment_iff (dv := dv) (σ := σ) (p := q) (m := m) hs hb hib hpp hr hpr
  rw [tauRes_ok] at hres
  simp only at hok
  split at hok
  · obtain ⟨yv, hyv, hok⟩ := bind_ok hok
    obtain ⟨dl, hdl, hok⟩ := bind_ok hok
    obtain ⟨dr, hdr, hok⟩ := bind_ok hok
    cases hok
    rw [allHold_single, Constraint.holds_mkGE]
    simp only [LinExpr.eval_sub, LinExpr.eval_add, LinExpr.eval_num, LinExpr.eval_var,
      LinExpr.eval_smul]
    have hbm := bigM (lhs := l + pl) (rhs := r + res + pr) (S.bounds hdl) (S.bounds hdr)
      (switchOrderVar_val S.hy S.ho hyv)
    have : (r + res + pr - getM (l + pl) (r + res + pr) dmax * yv.eval σ + σ dr ≤ l + pl + σ dl) ↔
        (r + res + pr + σ dr - getM (l + pl) (r + res + pr) dmax * yv.eval σ ≤ l + pl + σ dl) := by
      constructor <;> intro h <;> linarith
    rw [this, hbm, switchOrderVar_zero S hj hne hp1 hyv ⟨mayOvertake_symm, mayOvertake_symm⟩]
    constructor
    · intro hle q m qp mp r' hm hmp hr' hf
      obtain ⟨rfl, v1, hv1, rfl⟩ := (m1 q m).1 hm
      obtain ⟨rfl, v2, hv2, rfl⟩ := (m2 qp mp).1 hmp
      rw [hdl] at hv1; cases hv1
      rw [hdr] at hv2; cases hv2
      unfold Res at hres hr'
      rw [hres] at hr'; cases hr'
      have := hle hf
      linarith
    · intro hall hf
      have := hall p _ pp _ res ((m1 p _).2 ⟨rfl, dl, hdl, rfl⟩) ((m2 pp _).2 ⟨rfl, dr, hdr, rfl⟩)
        hres hf
      linarith
  · rename_i hdrop
    cases hok
    refine iff_of_true (allHold_nil σ) ?_
    intro q m qp mp r' hm hmp hr' _
    obtain ⟨rfl, v1, hv1, rfl⟩ := (m1 q m).1 hm
    obtain ⟨rfl, v2, hv2, rfl⟩ := (m2 qp mp).1 hmp
    unfold Res at hres hr'
    rw [hres] at hr'; cases hr'
    have h1 := (S.bounds hv1).1
    have h2 := (S.bounds hv2).2
    have := not_lt.1 hdrop
    linarith

end

end Verif
