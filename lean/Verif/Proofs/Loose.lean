import Verif.Proofs.Assemble
import Verif.Proofs.ConNames

/-!
# Constraints that fail by little

The families of constraints against the dispatching rules, for values that violate each constraint by at
most a given number.
-/

namespace Verif

/-- the builder succeeds, and the emitted inequalities fail by at most `E` of their names -/
def AllNear (E : String → ℚ) (σ : LpVar → ℚ) (m : Py (List Named)) : Prop :=
  ∃ cs, m = .ok cs ∧ ∀ c ∈ cs, c.2.sense = .ge → -E c.1 ≤ c.2.expr.eval σ

section
variable {E : String → ℚ} {σ : LpVar → ℚ}

theorem AllNear.oks {m : Py (List Named)} (h : AllNear E σ m) : Oks m := by
  obtain ⟨cs, h, _⟩ := h; exact ⟨cs, h⟩

theorem allNear_collect {α : Type} {xs : List α} {f : α → Py (List Named)}
    (h : AllNear E σ (collect xs f)) : ∀ x ∈ xs, AllNear E σ (f x) := by
  obtain ⟨cs, hcs, hall⟩ := h
  intro x hx
  obtain ⟨a, ha, hsub⟩ := (collect_ok hcs).1 x hx
  exact ⟨a, ha, fun c hc => hall c (hsub c hc)⟩

theorem allNear_append {m n : Py (List Named)}
    (h : AllNear E σ (do let a ← m; let b ← n; .ok (a ++ b))) : AllNear E σ m ∧ AllNear E σ n := by
  obtain ⟨cs, hcs, hall⟩ := h
  obtain ⟨a, ha, hcs⟩ := bind_ok hcs
  obtain ⟨b, hb, hcs⟩ := bind_ok hcs
  cases hcs
  exact ⟨⟨a, ha, fun c hc => hall c (List.mem_append_left _ hc)⟩,
    ⟨b, hb, fun c hc => hall c (List.mem_append_right _ hc)⟩⟩

theorem near_mkGE {n : String} {l r : LinExpr} (h : ∀ c ∈ [(n, Constraint.mkGE l r)],
    c.2.sense = .ge → -E c.1 ≤ c.2.expr.eval σ) : r.eval σ ≤ l.eval σ + E n := by
  have := h _ List.mem_cons_self rfl
  simp only [Constraint.mkGE, LinExpr.eval_sub] at this
  linarith

end

section
variable {ts : TrainSets} {tt : Timetable} {dmax : ℚ} {cat : Cat} {dv : DelayVars} {y : OrderVars}
  {σ : LpVar → ℚ} {E : String → ℚ} (hE : ∀ n, 0 ≤ E n)
include hE

omit hE in
theorem stay_near {j s : Val} (hok : AllNear E σ (minimalStayConstrain j s tt dv ts)) {p : Val}
    (hp : PrevOf ts j s p) (hpn : p ≠ .none) {t tp w st : ℚ} (h1 : Departs ts tt dv σ j p t)
    (h2 : Departs ts tt dv σ j s tp) (h3 : Pass tt j p s w) (h4 : Stop tt j s st) :
    t + w + st ≤ tp + E (CIx.stay j s).name := by
  obtain ⟨cs, hok, hall⟩ := hok
  obtain ⟨e1, v1, a1, b1, rfl⟩ := h1
  obtain ⟨e2, v2, a2, b2, rfl⟩ := h2
  unfold minimalStayConstrain at hok
  obtain ⟨path, hpath, hok⟩ := bind_ok hok
  obtain ⟨sp, hsp, hok⟩ := bind_ok hok
  have hprev : PrevOf ts j s sp := prevOf_iff.2 ⟨path, hpath, hsp⟩
  cases prevOf_unique hp hprev
  rw [if_pos hpn] at hok
  obtain ⟨dj, hdj, hok⟩ := bind_ok hok
  split at hok
  · rename_i d hd
    obtain ⟨lhs, hl, hok⟩ := bind_ok hok
    obtain ⟨dp, hdp, hok⟩ := bind_ok hok
    obtain ⟨e, he, hok⟩ := bind_ok hok
    obtain ⟨w', hw, hok⟩ := bind_ok hok
    obtain ⟨st', hst, hok⟩ := bind_ok hok
    rw [tauPass_ok] at hw
    rw [tauStop_ok] at hst
    cases hok
    have hdl : delayAt dv j s = .ok d := by
      unfold delayAt; rw [hdj]; exact Dict.at!_ok.2 hd
    have := near_mkGE hall
    simp only [LinExpr.eval_add, LinExpr.eval_num, LinExpr.eval_var] at this
    rw [he] at a1; cases a1
    rw [hl] at a2; cases a2
    rw [hdp] at b1; cases b1
    rw [hdl] at b2; cases b2
    unfold Pass at hw h3
    unfold Stop at hst h4
    rw [hw] at h3; cases h3
    rw [hst] at h4; cases h4
    have e0 : (CIx.stay j s).name = "minimal_stay_" ++ key2 j s := rfl
    rw [e0]
    linarith
  · rename_i hd
    rw [delayAt_ok] at b2
    rw [Dict.at!_ok] at hdj
    simp [find2, hdj, hd] at b2

variable (S : Setting ts dmax cat dv y σ)
include S

theorem span_near {s sp j jp : Val} (hjp : jp ≠ inKey) (hne : j ≠ jp)
    (hok : AllNear E σ (minimalSpanConstrain s sp j jp tt dv y ts dmax)) (hf : First3 y σ j jp s)
    {t tp h : ℚ} (h1 : Departs ts tt dv σ j s t) (h2 : Departs ts tt dv σ jp s tp)
    (h3 : Headway tt j jp s sp h) : t + h ≤ tp + E (CIx.span jp j s sp).name := by
  obtain ⟨cs, hok, hall⟩ := hok
  obtain ⟨e1, v1, a1, b1, rfl⟩ := h1
  obtain ⟨e2, v2, a2, b2, rfl⟩ := h2
  unfold minimalSpanConstrain at hok
  obtain ⟨lhs, hl, hok⟩ := bind_ok hok
  obtain ⟨e, he, hok⟩ := bind_ok hok
  obtain ⟨h', hh, hok⟩ := bind_ok hok
  rw [tauHeadway_ok] at hh
  rw [he] at a1; cases a1
  rw [hl] at a2; cases a2
  unfold Headway at hh h3
  rw [hh] at h3; cases h3
  simp only at hok
  split at hok
  · obtain ⟨dl, hdl, hok⟩ := bind_ok hok
    obtain ⟨dr, hdr, hok⟩ := bind_ok hok
    obtain ⟨yv, hyv, hok⟩ := bind_ok hok
    cases hok
    have := near_mkGE hall
    simp only [LinExpr.eval_sub, LinExpr.eval_add, LinExpr.eval_num, LinExpr.eval_var,
      LinExpr.eval_smul] at this
    rw [(S.zero3 hjp (Ne.symm hne) hyv).2 hf] at this
    rw [hdr] at b1; cases b1
    rw [hdl] at b2; cases b2
    have e0 : (CIx.span jp j s sp).name = "minimal_span_" ++ key4 jp j s sp := rfl
    rw [e0]
    linarith
  · rename_i hdrop
    have := dropped (S.bounds b2).1 (S.bounds b1).2 hdrop
    have := hE (CIx.span jp j s sp).name
    linarith

theorem circ_near {s j jp : Val} (hok : AllNear E σ (circBody s j jp tt dv ts dmax)) {p : Val}
    (hp : PrevOf ts j s p) {t tp w pr : ℚ} (h1 : Departs ts tt dv σ j p t)
    (h2 : Departs ts tt dv σ jp s tp) (h3 : Pass tt j p s w) (h4 : Prep tt jp s pr) :
    t + w + pr ≤ tp + E (CIx.circ j jp s).name := by
  obtain ⟨cs, hok, hall⟩ := hok
  obtain ⟨e1, v1, a1, b1, rfl⟩ := h1
  obtain ⟨e2, v2, a2, b2, rfl⟩ := h2
  unfold circBody at hok
  obtain ⟨path, hpath, hok⟩ := bind_ok hok
  obtain ⟨sp, hsp, hok⟩ := bind_ok hok
  obtain ⟨l, hl, hok⟩ := bind_ok hok
  obtain ⟨rhs, hr, hok⟩ := bind_ok hok
  obtain ⟨w', hw, hok⟩ := bind_ok hok
  obtain ⟨pr', hpr, hok⟩ := bind_ok hok
  rw [tauPass_ok] at hw
  rw [tauPrep_ok] at hpr
  have hprev : PrevOf ts j s sp := prevOf_iff.2 ⟨path, hpath, hsp⟩
  cases prevOf_unique hp hprev
  rw [hl] at a1; cases a1
  rw [hr] at a2; cases a2
  unfold Pass at hw h3
  unfold Prep at hpr h4
  rw [hw] at h3; cases h3
  rw [hpr] at h4; cases h4
  simp only at hok
  split at hok
  · obtain ⟨dl, hdl, hok⟩ := bind_ok hok
    obtain ⟨dr, hdr, hok⟩ := bind_ok hok
    cases hok
    have := near_mkGE hall
    simp only [LinExpr.eval_add, LinExpr.eval_num, LinExpr.eval_var] at this
    rw [hdl] at b1; cases b1
    rw [hdr] at b2; cases b2
    have e0 : (CIx.circ j jp s).name = "circulation_" ++ key3 j jp s := rfl
    rw [e0]
    linarith
  · rename_i hdrop
    have h1 := (S.bounds b2).1
    have h2 := (S.bounds b1).2
    have := not_lt.1 hdrop
    have := hE (CIx.circ j jp s).name
    linarith

theorem track_near {s j jp : Val} (hjp : jp ≠ inKey) (hne : j ≠ jp)
    (hno : ∀ jrr, ¬ ContinuedBy ts j s jrr)
    (hok : AllNear E σ (trainsOrderAtS s j jp tt dv y ts dmax)) (hf : First3 y σ j jp s)
    {t a r : ℚ} (h1 : Departs ts tt dv σ j s t)
    (h2 : Arrives ts tt (Departs ts tt dv σ) jp s a) (h3 : ExtraRes ts tt s r) :
    t + r ≤ a + E (CIx.track j jp s).name := by
  obtain ⟨cs, hok, hall⟩ := hok
  obtain ⟨e1, v1, a1, b1, rfl⟩ := h1
  unfold trainsOrderAtS at hok
  simp only at hok
  split at hok
  · rename_i hj
    exact absurd (continuedBy_iff.2 ⟨rfl, hj⟩) (hno _)
  · obtain ⟨⟨lhs, ref⟩, href, hok⟩ := bind_ok hok
    obtain ⟨e, he, hok⟩ := bind_ok hok
    obtain ⟨res, hres, hok⟩ := bind_ok hok
    have harr := arrivalRef_iff (dv := dv) (σ := σ) href
    rw [harr] at h2
    rw [he] at a1; cases a1
    have hr : r = res := by
      rw [← addSwitchRes_iff] at h3
      rw [h3] at hres; cases hres; rfl
    subst hr
    simp only at hok
    split at hok
    · obtain ⟨lhs1, hlhs1, hok⟩ := bind_ok hok
      obtain ⟨yv, hyv, hok⟩ := bind_ok hok
      obtain ⟨dj, hdj, hok⟩ := bind_ok hok
      cases hok
      rw [hdj] at b1; cases b1
      have hval : lhs1.eval σ = a := by
        unfold arrivalExpr at hlhs1
        unfold refVal at h2
        split at hlhs1
        · obtain ⟨v, hv, hlhs1⟩ := bind_ok hlhs1
          cases hlhs1
          obtain ⟨v', hv', rfl⟩ := h2
          rw [hv] at hv'; cases hv'
          simp
        · cases hlhs1
          simp only at h2
          simp [h2]
      have := near_mkGE hall
      simp only [LinExpr.eval_sub, LinExpr.eval_num, LinExpr.eval_var, LinExpr.eval_smul, hval] at this
      rw [(S.zero3 hjp (Ne.symm hne) hyv).2 hf] at this
      have e0 : (CIx.track j jp s).name = "track_occupation_" ++ key3 j jp s ++ "_p" := rfl
      rw [e0]
      linarith
    · rename_i hdrop
      have h1 := (S.bounds b1).2
      have h3 := not_lt.1 hdrop
      have h4 := hE (CIx.track j jp s).name
      unfold refVal at h2
      split at h2
      · obtain ⟨v, hv, rfl⟩ := h2
        have := (S.bounds hv).1
        linarith
      · rw [h2]; linarith

/-- the train of the second place goes first -/
theorem switchOcc_loose {s j p jp pp : Val} {pair : Dict Val String} {a b : String}
    (hs : s ≠ .none) (hj : j ≠ inKey) (hne : j ≠ jp) (hp1 : p ≠ oneStation)
    (ha : Dict.get? pair j = some a) (hb : Dict.get? pair jp = some b)
    (hia : a = "in" ∨ a = "out") (hib : b = "in" ∨ b = "out")
    (hp : departureStation4switches s j pair ts = .ok p)
    (hpp : departureStation4switches s jp pair ts = .ok pp)
    (hok : AllNear E σ (switchOcc s j p jp pp tt dv y ts dmax)) {q qp : Val} {m mp r : ℚ}
    (hm : SwitchMoment ts tt (Departs ts tt dv σ) s j a q m)
    (hmp : SwitchMoment ts tt (Departs ts tt dv σ) s jp b qp mp) (hr' : Res tt r)
    (hf : SwitchFirst ts (First3 y σ) (First4 y σ) (FirstIn y σ) s jp qp j q) :
    mp + r ≤ m + E (CIx.switch j jp s q qp).name := by
  obtain ⟨cs, hok, hall⟩ := hok
  unfold switchOcc at hok
  obtain ⟨l, hl, hok⟩ := bind_ok hok
  obtain ⟨r', hr, hok⟩ := bind_ok hok
  obtain ⟨res, hres, hok⟩ := bind_ok hok
  obtain ⟨pl, hpl, hok⟩ := bind_ok hok
  obtain ⟨pr, hpr, hok⟩ := bind_ok hok
  have m1 := fun q m => moment_iff (dv := dv) (σ := σ) (p := q) (m := m) hs ha hia hp hl hpl
  have m2 := fun q m => moment_iff (dv := dv) (σ := σ) (p := q) (m := m) hs hb hib hpp hr hpr
  rw [tauRes_ok] at hres
  obtain ⟨rfl, v1, hv1, rfl⟩ := (m1 q m).1 hm
  obtain ⟨rfl, v2, hv2, rfl⟩ := (m2 qp mp).1 hmp
  unfold Res at hres hr'
  rw [hres] at hr'; cases hr'
  simp only at hok
  split at hok
  · obtain ⟨yv, hyv, hok⟩ := bind_ok hok
    obtain ⟨dl, hdl, hok⟩ := bind_ok hok
    obtain ⟨dr, hdr, hok⟩ := bind_ok hok
    cases hok
    rw [hdl] at hv1; cases hv1
    rw [hdr] at hv2; cases hv2
    have := near_mkGE hall
    simp only [LinExpr.eval_sub, LinExpr.eval_add, LinExpr.eval_num, LinExpr.eval_var,
      LinExpr.eval_smul] at this
    rw [(switchOrderVar_zero S hj hne hp1 hyv ⟨mayOvertake_symm, mayOvertake_symm⟩).2 hf] at this
    have e0 : (CIx.switch j jp s q qp).name = "switch_" ++ key4 j jp s q ++ "_" ++ qp.render := rfl
    rw [e0]
    linarith
  · rename_i hdrop
    have h1 := (S.bounds hv1).1
    have h2 := (S.bounds hv2).2
    have := not_lt.1 hdrop
    have := hE (CIx.switch j jp s q qp).name
    linarith

/-! ## The families -/

omit hE S in
theorem stays_near (h : AllNear E σ (minimalStay tt dv ts)) {j s : Val} (hj : j ∈ ts.J)
    {path : List Val} (hpath : Dict.get? ts.paths j = some path) (hs : s ∈ path) :
    AllNear E σ (minimalStayConstrain j s tt dv ts) := by
  unfold minimalStay at h
  have := allNear_collect h j hj
  rw [Dict.at!_ok.2 hpath] at this
  exact allNear_collect this s hs

omit hE S in
theorem spans_near (h : AllNear E σ (minimalSpan tt dv y ts dmax)) {e : Val × Dict Val (List (List Val))}
    (he : e ∈ ts.Jd) {e2 : Val × List (List Val)} (he2 : e2 ∈ e.2) {g : List Val} (hg : g ∈ e2.2)
    {j jp : Val} (hj : j ∈ g) (hjp : jp ∈ g) (hne : j ≠ jp) :
    AllNear E σ (minimalSpanConstrain e.1 e2.1 j jp tt dv y ts dmax) := by
  unfold minimalSpan at h
  have h1 := allNear_collect (allNear_collect (allNear_collect h e he) e2 he2) g hg
  rcases pairs_of_mem hj hjp hne with hp | hp
  · exact (allNear_append (allNear_collect h1 _ hp)).1
  · exact (allNear_append (allNear_collect h1 _ hp)).2

omit hE S in
theorem circs_near (h : AllNear E σ (rollingStockCirc tt dv ts dmax)) {e : Val × List (Val × Val)}
    (he : e ∈ ts.Jround) {q : Val × Val} (hq : q ∈ e.2) :
    AllNear E σ (circBody e.1 q.1 q.2 tt dv ts dmax) := by
  unfold rollingStockCirc at h
  exact allNear_collect (allNear_collect h e he) q hq

omit hE S in
theorem trackFirst_near {s j jp : Val} (h : AllNear E σ (trackOccFirst s j jp tt dv y ts dmax))
    (hx : ¬ TrackExempt ts s jp) : AllNear E σ (trainsOrderAtS s jp j tt dv y ts dmax) := by
  unfold trackOccFirst at h
  cases hk : trackSkip ts s jp with
  | error e => rw [hk] at h; obtain ⟨_, h, _⟩ := h; cases h
  | ok b =>
    have := trackSkip_iff hk
    rw [hk] at h
    simp only [bind, Except.bind] at h
    cases b with
    | true => exact absurd (this.1 rfl) hx
    | false =>
      simp only [Bool.not_false, if_true] at h
      exact (allNear_append h).2

omit hE S in
theorem trackSecond_near {s j jp : Val} (h : AllNear E σ (trackOccSecond s j jp tt dv y ts dmax))
    (hx : ¬ TrackExempt ts s j) : AllNear E σ (trainsOrderAtS s j jp tt dv y ts dmax) := by
  unfold trackOccSecond at h
  cases hk : trackSkip ts s j with
  | error e => rw [hk] at h; obtain ⟨_, h, _⟩ := h; cases h
  | ok b =>
    have := trackSkip_iff hk
    rw [hk] at h
    simp only [bind, Except.bind] at h
    cases b with
    | true => exact absurd (this.1 rfl) hx
    | false =>
      simp only [Bool.not_false, if_true] at h
      exact h

omit hE S in
theorem tracks_near (h : AllNear E σ (trackOccupation tt dv y ts dmax)) {e : Val × List (List Val)}
    (he : e ∈ ts.Jtrack) {g : List Val} (hg : g ∈ e.2) {j jp : Val} (hj : j ∈ g) (hjp : jp ∈ g)
    (hne : j ≠ jp) (hss : ¬ SameStock ts j jp) (hx : ¬ TrackExempt ts e.1 j) :
    AllNear E σ (trainsOrderAtS e.1 j jp tt dv y ts dmax) := by
  unfold trackOccupation trackOccBody at h
  have h1 := allNear_collect (allNear_collect h e he) g hg
  rcases pairs_of_mem hj hjp hne with hp | hp
  · have h2 := allNear_collect h1 _ hp
    rw [if_pos (sameStock_iff.2 hss)] at h2
    exact trackSecond_near (allNear_append h2).2 hx
  · have h2 := allNear_collect h1 _ hp
    rw [if_pos (sameStock_iff.2 fun h => hss (sameStock_symm h))] at h2
    exact trackFirst_near (allNear_append h2).1 hx

theorem switches_near (h : AllNear E σ (switchOccupation tt dv y ts dmax))
    {e : Val × List (Dict Val String)} (he : e ∈ ts.Jswitch)
    {j jp : Val} {a b : String} (hp : [(j, a), (jp, b)] ∈ e.2) (hne : j ≠ jp)
    (hia : a = "in" ∨ a = "out") (hib : b = "in" ∨ b = "out") (hss : ¬ SameStock ts j jp)
    {p pp : Val} {m mp r : ℚ} (hm : SwitchMoment ts tt (Departs ts tt dv σ) e.1 j a p m)
    (hmp : SwitchMoment ts tt (Departs ts tt dv σ) e.1 jp b pp mp) (hr : Res tt r) :
    (SwitchFirst ts (First3 y σ) (First4 y σ) (FirstIn y σ) e.1 j p jp pp →
      m + r ≤ mp + E (CIx.switch jp j e.1 pp p).name) ∧
    (SwitchFirst ts (First3 y σ) (First4 y σ) (FirstIn y σ) e.1 jp pp j p →
      mp + r ≤ m + E (CIx.switch j jp e.1 p pp).name) := by
  have n := S.hn.names.jswitch e he
  have hj := n.2 _ hp (j, a) (by simp)
  have hjp := n.2 _ hp (jp, b) (by simp)
  have hs := S.hn.stations e he
  unfold switchOccupation at h
  have h := allNear_collect (allNear_collect h e he) _ hp
  unfold switchBody at h
  simp only at h
  rw [if_pos (sameStock_iff.2 hss)] at h
  obtain ⟨cs, hcs, hall⟩ := h
  obtain ⟨sp, hsp, hcs⟩ := bind_ok hcs
  obtain ⟨spp, hspp, hcs⟩ := bind_ok hcs
  have h : AllNear E σ (switchOcc e.1 j sp jp spp tt dv y ts dmax) ∧
      AllNear E σ (switchOcc e.1 jp spp j sp tt dv y ts dmax) := allNear_append ⟨cs, hcs, hall⟩
  have u1 := departureStation_U S.hn.names n.1 hsp
  have u2 := departureStation_U S.hn.names n.1 hspp
  have ga : Dict.get? [(j, a), (jp, b)] j = some a := by simp [Dict.get?]
  have gb : Dict.get? [(j, a), (jp, b)] jp = some b := by simp [Dict.get?, hne]
  exact ⟨fun hf => switchOcc_loose hE S hs hjp (Ne.symm hne) u2 gb ga hib hia hspp hsp h.2 hmp hm hr hf,
    fun hf => switchOcc_loose hE S hs hj hne u1 ga gb hia hib hsp hspp h.1 hm hmp hr hf⟩

end

end Verif
