import Verif.Proofs.Families

/-!
# Station tracks and switches
-/

namespace Verif

theorem mem_pairs_iff {α : Type} {xs : List α} {a b : α} :
    (a, b) ∈ pairs xs ↔ [a, b].Sublist xs := by
  induction xs with
  | nil => simp [pairs]
  | cons x xs ih =>
    simp only [pairs, List.mem_append, List.mem_map, Prod.mk.injEq, ih]
    constructor
    · rintro (⟨y, hy, rfl, rfl⟩ | h)
      · exact List.Sublist.cons_cons _ (List.singleton_sublist.2 hy)
      · exact h.cons _
    · intro h
      cases h with
      | cons _ h => exact .inr h
      | cons_cons _ h => exact .inl ⟨b, List.singleton_sublist.1 h, rfl, rfl⟩

theorem sublist_mem {α : Type} {xs : List α} {a b : α} (h : [a, b].Sublist xs) :
    a ∈ xs ∧ b ∈ xs := ⟨h.subset (by simp), h.subset (by simp)⟩

theorem iff_eq01 {a b : ℚ} {P Q : Prop} (ha : a = 0 ∨ a = 1) (hb : b = 0 ∨ b = 1)
    (hP : a = 1 ↔ P) (hQ : b = 1 ↔ Q) : a = b ↔ (P ↔ Q) := by
  rw [← hP, ← hQ]
  rcases ha with rfl | rfl <;> rcases hb with rfl | rfl <;> norm_num

section
variable {ts : TrainSets} {tt : Timetable} {dmax : ℚ} {cat : Cat} {dv : DelayVars} {y : OrderVars}
  {σ : LpVar → ℚ} (S : Setting ts dmax cat dv y σ)
include S

omit S in
theorem trackSkip_iff {s j : Val} {b : Bool} (h : trackSkip ts s j = .ok b) :
    b = true ↔ TrackExempt ts s j := by
  unfold trackSkip at h
  unfold TrackExempt
  split at h
  · rename_i h0; cases h; simp [h0]
  · rename_i d h0
    split at h
    · rename_i h1; cases h; simp [h0, h1]
    · rename_i x h1
      unfold pyIn at h
      split at h
      · rename_i t u
        cases h
        simp only [h0, Option.some.injEq, exists_and_left, exists_eq_left', h1, Val.str.injEq,
          strContains, decide_eq_true_iff]
      · cases h

/-- value of the arrival expression -/
def refVal (dv : DelayVars) (σ : LpVar → ℚ) (lhs : ℚ) (ref : Option (Val × Val)) (a : ℚ) : Prop :=
  match ref with
  | some (x, z) => ∃ v, delayAt dv x z = .ok v ∧ a = lhs + σ v
  | .none => a = lhs

omit S in
theorem arrivalRef_iff {s jp : Val} {lhs : ℚ} {ref : Option (Val × Val)}
    (h : arrivalRef s jp tt ts = .ok (lhs, ref)) (a : ℚ) :
    Arrives ts tt (Departs ts tt dv σ) jp s a ↔ refVal dv σ lhs ref a := by
  unfold arrivalRef at h
  simp only at h
  obtain ⟨path, hpath, h⟩ := bind_ok h
  obtain ⟨sp, hsp, h⟩ := bind_ok h
  have hprev : PrevOf ts jp s sp := prevOf_iff.2 ⟨path, hpath, hsp⟩
  unfold Arrives
  split at h
  · rename_i hjr
    obtain ⟨pr, hpr, h⟩ := bind_ok h
    obtain ⟨srp, hsrp, h⟩ := bind_ok h
    obtain ⟨e, he, h⟩ := bind_ok h
    obtain ⟨p, hp, h⟩ := bind_ok h
    cases h
    have hto := takesOver_iff.2 ⟨rfl, hjr⟩
    have hpv : PrevOf ts _ s srp := prevOf_iff.2 ⟨pr, hpr, hsrp⟩
    rw [tauPass_ok] at hp
    constructor
    · rintro (⟨jr, q, t, w, h1, h2, ⟨e1, v1, a1, b1, rfl⟩, h4, rfl⟩ | ⟨hno, _⟩ | ⟨hno, _⟩)
      · obtain ⟨rfl, _⟩ := takesOver_iff.1 h1
        cases prevOf_unique h2 hpv
        rw [he] at a1; cases a1
        unfold Pass at hp h4
        rw [hp] at h4; cases h4
        exact ⟨v1, b1, by ring⟩
      · exact absurd hto (hno _)
      · exact absurd hto (hno _)
    · rintro ⟨v, hv, rfl⟩
      exact .inl ⟨_, srp, _, p, hto, hpv, ⟨e, v, he, hv, rfl⟩, hp, by ring⟩
  · rename_i hjr
    have hno : ∀ jr, ¬ TakesOver ts jp s jr := by
      intro jr hto
      obtain ⟨rfl, h2⟩ := takesOver_iff.1 hto
      exact hjr h2
    split at h
    · rename_i hspn
      obtain ⟨e, he, h⟩ := bind_ok h
      obtain ⟨p, hp, h⟩ := bind_ok h
      cases h
      rw [tauPass_ok] at hp
      constructor
      · rintro (⟨jr, q, t, w, h1, _⟩ | ⟨_, q, t, w, h2, h3, ⟨e1, v1, a1, b1, rfl⟩, h4, rfl⟩ |
          ⟨_, h2, _⟩)
        · exact absurd h1 (hno _)
        · cases prevOf_unique h2 hprev
          rw [he] at a1; cases a1
          unfold Pass at hp h4
          rw [hp] at h4; cases h4
          exact ⟨v1, b1, by ring⟩
        · exact absurd (prevOf_unique hprev h2) hspn
      · rintro ⟨v, hv, rfl⟩
        exact .inr (.inl ⟨hno, sp, _, p, hprev, hspn, ⟨e, v, he, hv, rfl⟩, hp, by ring⟩)
    · rename_i hspn
      rw [not_not] at hspn; subst hspn
      obtain ⟨e, he, h⟩ := bind_ok h
      cases h
      simp only [refVal]
      constructor
      · rintro (⟨jr, q, t, w, h1, _⟩ | ⟨_, q, t, w, h2, h3, _⟩ | ⟨_, h2, h3⟩)
        · exact absurd h1 (hno _)
        · exact absurd (prevOf_unique h2 hprev) h3
        · rw [he] at h3; cases h3; rfl
      · rintro rfl
        exact .inr (.inr ⟨hno, hprev, he⟩)

theorem trainsOrderAtS_iff {s j jp : Val} (hjp : jp ≠ inKey) (hne : j ≠ jp)
    (hss : ¬ SameStock ts j jp) (hok : Oks (trainsOrderAtS s j jp tt dv y ts dmax)) :
    AllHold σ (trainsOrderAtS s j jp tt dv y ts dmax) ↔
      TrackOne ts tt (Departs ts tt dv σ) (First3 y σ) s j jp := by
  obtain ⟨cs, hok⟩ := hok
  rw [hok]
  unfold trainsOrderAtS at hok
  simp only at hok
  unfold TrackOne
  split at hok
  · rename_i hj
    obtain ⟨l, hl, hok⟩ := bind_ok hok
    obtain ⟨r, hr, hok⟩ := bind_ok hok
    cases hok
    have hc := continuedBy_iff.2 ⟨rfl, hj⟩
    have hne2 : jp ≠ subsequentTrainAtJround ts j s := by
      intro heq
      apply hss
      obtain ⟨ps, h1, h2, _⟩ := hc
      refine ⟨hne, (s, ps), Dict.mem_of_get? h1, .inl ?_⟩
      have := List.mem_of_find?_eq_some h2
      rwa [← heq] at this
    rw [allHold_single, Constraint.holds_mkEQ,
      iff_eq01 (getY3_val S.hy S.ho hl) (getY3_val S.hy S.ho hr) (S.one3 hjp (Ne.symm hne) hl)
        (S.one3 hjp hne2 hr)]
    constructor
    · intro h
      refine ⟨fun jrr hjrr => ?_, fun hno => absurd hc (hno _)⟩
      obtain ⟨rfl, _⟩ := continuedBy_iff.1 hjrr
      exact h
    · intro h; exact h.1 _ hc
  · rename_i hj
    rw [not_not] at hj
    have hno : ∀ jrr, ¬ ContinuedBy ts j s jrr := by
      intro jrr h
      obtain ⟨rfl, h2⟩ := continuedBy_iff.1 h
      exact h2 hj
    have key : ∀ P Q : Prop, (Q ↔ P) →
        (Q ↔ ((∀ jrr, ContinuedBy ts j s jrr →
          (First3 y σ jp j s ↔ First3 y σ jp jrr s)) ∧
          ((∀ jrr, ¬ ContinuedBy ts j s jrr) → P))) := by
      intro P Q h
      rw [h]
      exact ⟨fun h => ⟨fun jrr hc => absurd hc (hno jrr), fun _ => h⟩, fun h => h.2 hno⟩
    refine key _ _ ?_
    obtain ⟨⟨lhs, ref⟩, href, hok⟩ := bind_ok hok
    obtain ⟨e, he, hok⟩ := bind_ok hok
    obtain ⟨res, hres, hok⟩ := bind_ok hok
    have harr := arrivalRef_iff (dv := dv) (σ := σ) href
    rw [addSwitchRes_iff] at hres
    have hresu : ∀ r, ExtraRes ts tt s r → r = res := by
      intro r hr
      rw [← addSwitchRes_iff] at hr hres
      rw [hr] at hres; cases hres; rfl
    simp only at hok
    split at hok
    · obtain ⟨lhs1, hlhs1, hok⟩ := bind_ok hok
      obtain ⟨yv, hyv, hok⟩ := bind_ok hok
      obtain ⟨dj, hdj, hok⟩ := bind_ok hok
      cases hok
      -- the arrival value
      obtain ⟨d, hd0, hd1, hval, hrv⟩ : ∃ d : ℚ, 0 ≤ d ∧ (d ≤ dmax ∨ d = 0) ∧
          lhs1.eval σ = lhs + d ∧ ∀ a, refVal dv σ lhs ref a ↔ a = lhs + d := by
        unfold arrivalExpr at hlhs1
        split at hlhs1
        · rename_i x z
          obtain ⟨v, hv, hlhs1⟩ := bind_ok hlhs1
          cases hlhs1
          refine ⟨σ v, (S.bounds hv).1, .inl (S.bounds hv).2, by simp, fun a => ?_⟩
          simp [refVal, hv]
        · cases hlhs1
          exact ⟨0, le_refl 0, .inr rfl, by simp, fun a => by simp [refVal]⟩
      have hdd := S.bounds hdj
      have hd' : d ≤ dmax := by
        rcases hd1 with h | h
        · exact h
        · rw [h]; exact hdd.1.trans hdd.2
      rw [allHold_single, Constraint.holds_mkGE]
      simp only [LinExpr.eval_sub, LinExpr.eval_num, LinExpr.eval_var, LinExpr.eval_smul, hval]
      have hb := bigM (lhs := lhs) (rhs := e + res) ⟨hd0, hd'⟩ hdd (getY3_val S.hy S.ho hyv)
      have : (e + res - getM lhs (e + res) dmax * yv.eval σ ≤ lhs + d - σ dj) ↔
          (e + res + σ dj - getM lhs (e + res) dmax * yv.eval σ ≤ lhs + d) := by
        constructor <;> intro h <;> linarith
      rw [this, hb, S.zero3 hjp (Ne.symm hne) hyv]
      refine imp_congr_right fun _ => ?_
      constructor
      · rintro hle t a r ⟨e1, v1, a1, b1, rfl⟩ ha hr
        rw [harr, hrv] at ha
        rw [he] at a1; cases a1
        rw [hdj] at b1; cases b1
        rw [hresu r hr, ha]
        linarith
      · intro hall
        have := hall _ (lhs + d) res ⟨e, dj, he, hdj, rfl⟩ ((harr _).2 ((hrv _).2 rfl)) hres
        linarith
    · rename_i hdrop
      cases hok
      refine iff_of_true (allHold_nil σ) ?_
      rintro _ t a r ⟨e1, v1, a1, b1, rfl⟩ ha hr
      rw [harr] at ha
      rw [he] at a1; cases a1
      rw [hresu r hr]
      have h1 := (S.bounds b1).2
      have h2 := not_lt.1 hdrop
      unfold refVal at ha
      split at ha
      · obtain ⟨v, hv, rfl⟩ := ha
        have := (S.bounds hv).1
        linarith
      · rw [ha]; linarith

theorem keepTrainsOrder_iff {s j jp : Val} (hj : j ≠ inKey) (hne : j ≠ jp)
    (hok : Oks (keepTrainsOrder s j jp y ts)) :
    AllHold σ (keepTrainsOrder s j jp y ts) ↔
      OrderCoupling ts y (First3 y σ) (FirstIn y σ) s j jp := by
  obtain ⟨cs, hok⟩ := hok
  rw [hok]
  unfold keepTrainsOrder at hok
  obtain ⟨path, hpath, hok⟩ := bind_ok hok
  obtain ⟨sp, hsp, hok⟩ := bind_ok hok
  have hprev : PrevOf ts j s sp := prevOf_iff.2 ⟨path, hpath, hsp⟩
  have one3' : ∀ {x : Val} {v : LpVar}, at4 y j jp oneStation x = .ok v →
      (σ v = 1 ↔ First3 y σ j jp x) := by
    intro x v hv
    have hc : checkOrderVar3arg y j jp x = true := by
      unfold checkOrderVar3arg
      rw [check4_iff]; rw [at4_ok] at hv; rw [hv]; simp
    have hg : getY3 y j jp x = .ok (.var v) := by
      unfold getY3; rw [if_pos hc, hv]; rfl
    have := S.one3 hj hne hg
    simpa using this
  unfold OrderCoupling
  split at hok
  · rename_i h0
    cases hok
    refine iff_of_true (allHold_nil σ) ?_
    intro sp' d hp hd
    cases prevOf_unique hp hprev
    rw [h0] at hd; cases hd
  · rename_i d hd
    split at hok
    · rename_i hh
      obtain ⟨g, hg, hok⟩ := bind_ok hok
      rw [Dict.at!_ok] at hg
      split at hok
      · rename_i hocc
        rw [occursAsPair_iff] at hocc
        have hgs : ∀ gs, Dict.get? ts.Jtrack s = some gs → ∃ g ∈ gs, j ∈ g ∧ jp ∈ g ∧ j ≠ jp := by
          intro gs h; rw [hg] at h; cases h; exact hocc
        have hds : Dict.get? d s ≠ .none := by
          unfold Dict.has at hh
          intro h; rw [h] at hh; cases hh
        obtain ⟨mo, hmo, hok⟩ := bind_ok hok
        have hmo' := canMO_iff hmo
        have red : ∀ {A B C : Prop}, (A ↔ (B ∧ C)) → (A ↔ (∀ sp' d', PrevOf ts j s sp' →
            Dict.get? ts.Jd sp' = some d' → Dict.get? d' s ≠ .none →
            (∀ gs, Dict.get? ts.Jtrack s = some gs → ∃ g ∈ gs, j ∈ g ∧ jp ∈ g ∧ j ≠ jp) →
            (sp' = sp → (B ∧ C)))) := by
          intro A B C h
          rw [h]
          exact ⟨fun h _ _ _ _ _ _ _ => h, fun h => h sp d hprev hd hds hgs rfl⟩
        split at hok
        · rename_i hmf
          have hmf : mo = false := by simpa using hmf
          subst hmf
          have hnmo : ¬ MayOvertake ts j jp s := fun h => by have := hmo'.2 h; cases this
          obtain ⟨y1, hy1, hok⟩ := bind_ok hok
          obtain ⟨y2, hy2, hok⟩ := bind_ok hok
          obtain ⟨y3, hy3, hok⟩ := bind_ok hok
          have hat : ∀ x, at4 y j jp oneStation x = Dict.at! y3 x := by
            intro x; unfold at4; rw [hy1]; simp only [bind, Except.bind]; rw [hy2]
            simp only; rw [hy3]
          split at hok
          · rename_i a b ha hb
            cases hok
            have ha' : at4 y j jp oneStation s = .ok a := by rw [hat]; exact Dict.at!_ok.2 ha
            have hb' : at4 y j jp oneStation sp = .ok b := by rw [hat]; exact Dict.at!_ok.2 hb
            rw [allHold_single, Constraint.holds_mkEQ]
            simp only [LinExpr.eval_var]
            rw [iff_eq01 (at4_val S.hy S.ho ha') (at4_val S.hy S.ho hb') (one3' ha') (one3' hb')]
            constructor
            · intro h sp' d' hp _ _ _
              cases prevOf_unique hp hprev
              exact ⟨fun _ _ _ => h, fun h => absurd h hnmo⟩
            · intro h
              exact (h sp d hprev hd hds hgs).1 hnmo ⟨a, ha'⟩ ⟨b, hb'⟩
          · rename_i hno
            cases hok
            refine iff_of_true (allHold_nil σ) ?_
            intro sp' d' hp _ _ _
            cases prevOf_unique hp hprev
            refine ⟨?_, fun h => absurd h hnmo⟩
            rintro _ ⟨a, ha⟩ ⟨b, hb⟩
            rw [hat, Dict.at!_ok] at ha hb
            exact absurd hb (hno a b ha)
        · rename_i hmf
          have hmt : mo = true := by
            cases mo
            · exact absurd rfl hmf
            · rfl
          subst hmt
          have hmo2 : MayOvertake ts j jp s := hmo'.1 rfl
          split at hok
          · rename_i hent
            rw [entering_iff] at hent
            obtain ⟨l, hl, hok⟩ := bind_ok hok
            obtain ⟨r, hr, hok⟩ := bind_ok hok
            cases hok
            rw [allHold_single, Constraint.holds_mkEQ]
            simp only [LinExpr.eval_var]
            rw [iff_eq01 (getY4in_val S.hy S.ho hl) (at4_val S.hy S.ho hr) (S.oneIn hne hl)
              (one3' hr)]
            constructor
            · intro h sp' d' hp _ _ _
              exact ⟨fun h => absurd hmo2 h, fun _ _ => h⟩
            · intro h
              exact (h sp d hprev hd hds hgs).2 hmo2 hent
          · rename_i hent
            rw [entering_iff] at hent
            cases hok
            refine iff_of_true (allHold_nil σ) ?_
            intro sp' d' hp _ _ _
            exact ⟨fun h => absurd hmo2 h, fun _ h => absurd h hent⟩
      · rename_i hocc
        rw [occursAsPair_iff] at hocc
        cases hok
        refine iff_of_true (allHold_nil σ) ?_
        intro sp' d' hp _ _ hgs
        exact absurd (hgs g hg) hocc
    · rename_i hh
      cases hok
      refine iff_of_true (allHold_nil σ) ?_
      intro sp' d' hp hd' hds
      cases prevOf_unique hp hprev
      rw [hd] at hd'; cases hd'
      exfalso; apply hh
      unfold Dict.has
      cases h : Dict.get? d s with
      | none => exact absurd h hds
      | some x => rfl

end

end Verif
