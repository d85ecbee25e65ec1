import Verif.Props.Rules2

/-!
# C08, C09: the big-M constant and the constraints left out as redundant
-/

namespace Verif

/-- **C08.** `get_M` is large enough to switch a constraint off for all delays, leaves it intact when
the binary is 0, and if it is larger than 1 no smaller constant would do. -/
theorem C08_bigM (lhs rhs dmax : ℚ) (h0 : 0 ≤ dmax) :
    (∀ d d', 0 ≤ d → d ≤ dmax → 0 ≤ d' → d' ≤ dmax →
      rhs + d' - getM lhs rhs dmax * 1 ≤ lhs + d) ∧
    (∀ d d', rhs + d' - getM lhs rhs dmax * 0 ≤ lhs + d ↔ rhs + d' ≤ lhs + d) ∧
    (1 < getM lhs rhs dmax → ∀ M, (∀ d d', 0 ≤ d → d ≤ dmax → 0 ≤ d' → d' ≤ dmax →
      rhs + d' - M * 1 ≤ lhs + d) → getM lhs rhs dmax ≤ M) := by
  refine ⟨fun d d' h1 h2 h3 h4 => ?_, fun d d' => by simp, fun h M hM => ?_⟩
  · exact (bigM ⟨h1, h2⟩ ⟨h3, h4⟩ (.inr rfl)).2 (by simp)
  · have := hM 0 dmax (le_refl _) h0 h0 (le_refl _)
    unfold getM at h ⊢
    rcases lt_max_iff.1 h with h | h
    · rw [max_eq_left h.le]; linarith
    · exact absurd h (lt_irrefl _)

/-- the case `1 < M` occurs -/
example : 1 < getM 3 5 10 := by unfold getM; norm_num

/-- train `j` may leave `s` at `t`: earliest departure plus any delay between 0 and `d_max` -/
def MayDepart (ts : TrainSets) (tt : Timetable) (dmax : ℚ) (j s : Val) (t : ℚ) : Prop :=
  ∃ e d, earliestDepTime ts.paths tt j s = .ok e ∧ 0 ≤ d ∧ d ≤ dmax ∧ t = e + d

section
variable {ts : TrainSets} {tt : Timetable} {dmax : ℚ} {dv : DelayVars} {y : OrderVars}

/-- **C09**, headway: a constraint left out holds for all delays. -/
theorem C09_headway {s sp j jp : Val}
    (h : minimalSpanConstrain s sp j jp tt dv y ts dmax = .ok []) {t tp x : ℚ}
    (ht : MayDepart ts tt dmax j s t) (htp : MayDepart ts tt dmax jp s tp)
    (hx : Headway tt j jp s sp x) : t + x ≤ tp := by
  unfold minimalSpanConstrain at h
  obtain ⟨lhs, hl, h⟩ := bind_ok h
  obtain ⟨e, he, h⟩ := bind_ok h
  obtain ⟨x', hx', h⟩ := bind_ok h
  rw [tauHeadway_ok] at hx'
  unfold Headway at hx hx'
  rw [hx] at hx'; cases hx'
  obtain ⟨e1, d1, h1, h2, h3, rfl⟩ := ht
  obtain ⟨e2, d2, h4, h5, h6, rfl⟩ := htp
  rw [he] at h1; cases h1
  rw [hl] at h4; cases h4
  simp only at h
  split at h
  · obtain ⟨_, _, h⟩ := bind_ok h
    obtain ⟨_, _, h⟩ := bind_ok h
    obtain ⟨_, _, h⟩ := bind_ok h
    cases h
  · rename_i hlt; linarith [not_lt.1 hlt]

/-- **C09**, single line. -/
theorem C09_singleLine {s sp j jp : Val}
    (h : singleLineConstrain s sp j jp tt dv y ts dmax = .ok []) {t tp w : ℚ}
    (ht : MayDepart ts tt dmax j s t) (htp : MayDepart ts tt dmax jp sp tp)
    (hw : Pass tt jp sp s w) : tp + w ≤ t := by
  unfold singleLineConstrain at h
  obtain ⟨lhs, hl, h⟩ := bind_ok h
  obtain ⟨e, he, h⟩ := bind_ok h
  obtain ⟨w', hw', h⟩ := bind_ok h
  rw [tauPass_ok] at hw'
  unfold Pass at hw hw'
  rw [hw] at hw'; cases hw'
  obtain ⟨e1, d1, h1, h2, h3, rfl⟩ := ht
  obtain ⟨e2, d2, h4, h5, h6, rfl⟩ := htp
  rw [hl] at h1; cases h1
  rw [he] at h4; cases h4
  simp only at h
  split at h
  · obtain ⟨_, _, h⟩ := bind_ok h
    obtain ⟨_, _, h⟩ := bind_ok h
    obtain ⟨_, _, h⟩ := bind_ok h
    cases h
  · rename_i hlt; linarith [not_lt.1 hlt]

/-- **C09**, circulation. -/
theorem C09_circulation {s j jp : Val} (h : circBody s j jp tt dv ts dmax = .ok []) {p : Val}
    (hprev : PrevOf ts j s p) {t tp w pr : ℚ} (ht : MayDepart ts tt dmax j p t)
    (htp : MayDepart ts tt dmax jp s tp) (hw : Pass tt j p s w) (hpr : Prep tt jp s pr) :
    t + w + pr ≤ tp := by
  unfold circBody at h
  obtain ⟨path, hpath, h⟩ := bind_ok h
  obtain ⟨sp, hsp, h⟩ := bind_ok h
  have := prevOf_unique (prevOf_iff.2 ⟨path, hpath, hsp⟩) hprev
  subst this
  obtain ⟨e, he, h⟩ := bind_ok h
  obtain ⟨e', he', h⟩ := bind_ok h
  obtain ⟨w', hw', h⟩ := bind_ok h
  obtain ⟨pr', hpr', h⟩ := bind_ok h
  rw [tauPass_ok] at hw'
  rw [tauPrep_ok] at hpr'
  unfold Pass at hw hw'
  unfold Prep at hpr hpr'
  rw [hw] at hw'; cases hw'
  rw [hpr] at hpr'; cases hpr'
  obtain ⟨e1, d1, h1, h2, h3, rfl⟩ := ht
  obtain ⟨e2, d2, h4, h5, h6, rfl⟩ := htp
  rw [he] at h1; cases h1
  rw [he'] at h4; cases h4
  simp only at h
  split at h
  · obtain ⟨_, _, h⟩ := bind_ok h
    obtain ⟨_, _, h⟩ := bind_ok h
    cases h
  · rename_i hlt; linarith [not_lt.1 hlt]

/-- earliest arrival computed by the code is a lower bound of all arrivals -/
theorem arrivalRef_le {s jp : Val} {lhs : ℚ} {ref : Option (Val × Val)}
    (h : arrivalRef s jp tt ts = .ok (lhs, ref)) {a : ℚ}
    (ha : Arrives ts tt (MayDepart ts tt dmax) jp s a) : lhs ≤ a := by
  unfold arrivalRef at h
  simp only at h
  obtain ⟨path, hpath, h⟩ := bind_ok h
  obtain ⟨sp, hsp, h⟩ := bind_ok h
  have hprev : PrevOf ts jp s sp := prevOf_iff.2 ⟨path, hpath, hsp⟩
  split at h
  · rename_i hjr
    obtain ⟨pr, hpr, h⟩ := bind_ok h
    obtain ⟨srp, hsrp, h⟩ := bind_ok h
    obtain ⟨e, he, h⟩ := bind_ok h
    obtain ⟨w, hw, h⟩ := bind_ok h
    cases h
    have hto := takesOver_iff.2 ⟨rfl, hjr⟩
    rcases ha with ⟨jr, p, t, w', h1, h2, ⟨e', d, h3, h4, h5, rfl⟩, h6, rfl⟩ | ⟨h1, _⟩ | ⟨h1, _⟩
    · obtain ⟨rfl, _⟩ := takesOver_iff.1 h1
      have := prevOf_unique h2 (prevOf_iff.2 ⟨pr, hpr, hsrp⟩)
      subst this
      rw [he] at h3; cases h3
      rw [tauPass_ok] at hw
      unfold Pass at h6 hw
      rw [h6] at hw; cases hw
      linarith
    · exact absurd hto (h1 _)
    · exact absurd hto (h1 _)
  · rename_i hjr
    have hno : ∀ jr, ¬ TakesOver ts jp s jr := by
      intro jr hj
      obtain ⟨rfl, h2⟩ := takesOver_iff.1 hj
      exact hjr h2
    split at h
    · rename_i hspn
      obtain ⟨e, he, h⟩ := bind_ok h
      obtain ⟨w, hw, h⟩ := bind_ok h
      cases h
      rcases ha with ⟨jr, p, t, w', h1, _⟩ | ⟨_, p, t, w', h2, h3, ⟨e', d, h4, h5, h6, rfl⟩, h7, rfl⟩ |
        ⟨_, h2, _⟩
      · exact absurd h1 (hno _)
      · have := prevOf_unique h2 hprev
        subst this
        rw [he] at h4; cases h4
        rw [tauPass_ok] at hw
        unfold Pass at h7 hw
        rw [h7] at hw; cases hw
        linarith
      · exact absurd (prevOf_unique hprev h2) hspn
    · rename_i hspn
      have hspn : sp = .none := not_not.1 hspn
      obtain ⟨e, he, h⟩ := bind_ok h
      cases h
      rcases ha with ⟨jr, p, t, w', h1, _⟩ | ⟨_, p, t, w', h2, h3, _⟩ | ⟨_, h2, h3⟩
      · exact absurd h1 (hno _)
      · exact absurd (prevOf_unique h2 hprev ▸ hspn) h3
      · rw [he] at h3; cases h3; exact le_refl _

/-- **C09**, station track. -/
theorem C09_stationTrack {s j jp : Val} (h : trainsOrderAtS s j jp tt dv y ts dmax = .ok [])
    {t a r : ℚ} (ht : MayDepart ts tt dmax j s t)
    (ha : Arrives ts tt (MayDepart ts tt dmax) jp s a) (hr : ExtraRes ts tt s r) : t + r ≤ a := by
  unfold trainsOrderAtS at h
  simp only at h
  split at h
  · obtain ⟨_, _, h⟩ := bind_ok h
    obtain ⟨_, _, h⟩ := bind_ok h
    cases h
  · obtain ⟨⟨lhs, ref⟩, href, h⟩ := bind_ok h
    obtain ⟨e, he, h⟩ := bind_ok h
    obtain ⟨r', hr', h⟩ := bind_ok h
    have h0 := arrivalRef_le href ha
    have : r' = r := by
      rw [← addSwitchRes_iff, hr'] at hr; cases hr; rfl
    subst this
    obtain ⟨e1, d1, h1, h2, h3, rfl⟩ := ht
    rw [he] at h1; cases h1
    simp only at h
    split at h
    · obtain ⟨_, _, h⟩ := bind_ok h
      obtain ⟨_, _, h⟩ := bind_ok h
      obtain ⟨_, _, h⟩ := bind_ok h
      cases h
    · rename_i hlt; linarith [not_lt.1 hlt]

/-- **C09**, switches: `jpp` passes the switches of `s` (having left `spp`) at least the reservation
time before `jp` (having left `sp`). -/
theorem C09_switches {s jp sp jpp spp : Val}
    (h : switchOcc s jp sp jpp spp tt dv y ts dmax = .ok []) {t tp w wp r : ℚ}
    (ht : MayDepart ts tt dmax jp sp t) (htp : MayDepart ts tt dmax jpp spp tp)
    (hw : if s = sp then w = 0 else Pass tt jp sp s w)
    (hwp : if s = spp then wp = 0 else Pass tt jpp spp s wp) (hr : Res tt r) :
    tp + wp + r ≤ t + w := by
  unfold switchOcc at h
  obtain ⟨l, hl, h⟩ := bind_ok h
  obtain ⟨l', hl', h⟩ := bind_ok h
  obtain ⟨r', hr', h⟩ := bind_ok h
  obtain ⟨w1, hw1, h⟩ := bind_ok h
  obtain ⟨w2, hw2, h⟩ := bind_ok h
  have e0 : r' = r := by
    rw [← tauRes_ok, hr'] at hr; cases hr; rfl
  have e1 : w1 = w := by
    unfold passTo at hw1
    split at hw
    · rename_i hs; simp only [hs, ne_eq, not_true_eq_false, if_false] at hw1; cases hw1; exact hw.symm
    · rename_i hs
      simp only [hs, ne_eq, not_false_eq_true, if_true] at hw1
      rw [tauPass_ok] at hw1
      unfold Pass at hw hw1
      rw [hw] at hw1; cases hw1; rfl
  have e2 : w2 = wp := by
    unfold passTo at hw2
    split at hwp
    · rename_i hs; simp only [hs, ne_eq, not_true_eq_false, if_false] at hw2; cases hw2; exact hwp.symm
    · rename_i hs
      simp only [hs, ne_eq, not_false_eq_true, if_true] at hw2
      rw [tauPass_ok] at hw2
      unfold Pass at hwp hw2
      rw [hwp] at hw2; cases hw2; rfl
  subst e0 e1 e2
  obtain ⟨e1, d1, h1, h2, h3, rfl⟩ := ht
  obtain ⟨e2, d2, h4, h5, h6, rfl⟩ := htp
  rw [hl] at h1; cases h1
  rw [hl'] at h4; cases h4
  simp only at h
  split at h
  · obtain ⟨_, _, h⟩ := bind_ok h
    obtain ⟨_, _, h⟩ := bind_ok h
    obtain ⟨_, _, h⟩ := bind_ok h
    cases h
  · rename_i hlt; linarith [not_lt.1 hlt]

end

/-- the hypotheses of the C09 theorems are met: with `d_max = 0` the headway between trains 2 and 4
of the small instance (2 leaves A at 2, 4 at 10) is left out -/
example : minimalSpanConstrain (.str "A") (.str "B") (.int 2) (.int 4) Small.tt [] [] Small.ts 0
      = .ok [] ∧ MayDepart Small.ts Small.tt 0 (.int 2) (.str "A") 2 ∧
    MayDepart Small.ts Small.tt 0 (.int 4) (.str "A") 10 ∧
    Headway Small.tt (.int 2) (.int 4) (.str "A") (.str "B") 2 :=
  ⟨by decide +kernel, ⟨2, 0, by decide +kernel, by norm_num, by norm_num, by norm_num⟩,
    ⟨10, 0, by decide +kernel, by norm_num, by norm_num, by norm_num⟩,
    by unfold Headway; decide +kernel⟩

/-- single line: 3 leaves B at 3 and is at A at 8, before 4 leaves A at 10 -/
example : singleLineConstrain (.str "A") (.str "B") (.int 4) (.int 3) Small.tt [] [] Small.ts 2
      = .ok [] ∧ Pass Small.tt (.int 3) (.str "B") (.str "A") 5 :=
  ⟨by decide +kernel, by unfold Pass; decide +kernel⟩

/-- circulation: 3 → 4 at A needs 3 + 5 + 2 = 10 -/
example : circBody (.str "A") (.int 3) (.int 4) Small.tt [] Small.ts 0 = .ok [] := by decide +kernel

/-- station track: 2 leaves B at 8, 4 arrives there at 15 -/
example : trainsOrderAtS (.str "B") (.int 2) (.int 4) Small.tt [] [] Small.ts 2 = .ok [] := by
  decide +kernel

/-- switches: 1 passes the switches of A at 4, 3 at 8 -/
example : switchOcc (.str "A") (.int 3) (.str "B") (.int 1) (.str "A") Small.tt [] [] Small.ts 2
      = .ok [] := by decide +kernel

end Verif
