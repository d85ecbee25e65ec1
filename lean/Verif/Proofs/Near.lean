import Verif.Props.TableRules
import Verif.Proofs.ConNames

/-!
# Plans that break the rules for switches a little

For a plan that keeps all the rules, except that some trains pass common switches too early: all the
constraints hold, except those for these trains; by how much they fail.
-/

namespace Verif

section
variable {ts : TrainSets} {tt : Timetable} {dv : DelayVars} {y : OrderVars} {dmax : ℚ} {cat : Cat}
  {σ : LpVar → ℚ} (S : Setting ts dmax cat dv y σ)
include S

/-- the constraint that a call of `switch_occ` makes fails by at most `ε` -/
theorem switchOcc_near {s j p jp pp : Val} {pair : Dict Val String} {a b : String}
    (hs : s ≠ .none) (hj : j ≠ inKey) (hne : j ≠ jp) (hp1 : p ≠ oneStation)
    (ha : Dict.get? pair j = some a) (hb : Dict.get? pair jp = some b)
    (hia : a = "in" ∨ a = "out") (hib : b = "in" ∨ b = "out")
    (hp : departureStation4switches s j pair ts = .ok p)
    (hpp : departureStation4switches s jp pair ts = .ok pp) {cs : List Named}
    (hok : switchOcc s j p jp pp tt dv y ts dmax = .ok cs) {ε : ℚ} (h0 : 0 ≤ ε)
    (hall : ∀ m mp r, SwitchMoment ts tt (Departs ts tt dv σ) s j a p m →
      SwitchMoment ts tt (Departs ts tt dv σ) s jp b pp mp → Res tt r →
      SwitchFirst ts (First3 y σ) (First4 y σ) (FirstIn y σ) s jp pp j p → mp + r ≤ m + ε) :
    ∀ c ∈ cs, c.1 = (CIx.switch j jp s p pp).name ∧ c.2.sense = .ge ∧ -ε ≤ c.2.expr.eval σ := by
  unfold switchOcc at hok
  obtain ⟨l, hl, hok⟩ := bind_ok hok
  obtain ⟨r, hr, hok⟩ := bind_ok hok
  obtain ⟨res, hres, hok⟩ := bind_ok hok
  obtain ⟨pl, hpl, hok⟩ := bind_ok hok
  obtain ⟨pr, hpr, hok⟩ := bind_ok hok
  have m1 := fun q m => moment_iff (dv := dv) (σ := σ) (p := q) (m := m) hs ha hia hp hl hpl
  have m2 := fun q m => moment_iff (dv := dv) (σ := σ) (p := q) (m := m) hs hb hib hpp hr hpr
  rw [tauRes_ok] at hres
  simp only at hok
  split at hok
  · obtain ⟨yv, hyv, hok⟩ := bind_ok hok
    obtain ⟨dl, hdl, hok⟩ := bind_ok hok
    obtain ⟨dr, hdr, hok⟩ := bind_ok hok
    cases hok
    intro c hc
    rw [List.mem_singleton] at hc
    subst hc
    refine ⟨rfl, rfl, ?_⟩
    simp only [Constraint.mkGE, LinExpr.eval_sub, LinExpr.eval_add, LinExpr.eval_num, LinExpr.eval_var,
      LinExpr.eval_smul]
    have hbm := bigM (lhs := l + pl) (rhs := r + res + pr) (S.bounds hdl) (S.bounds hdr)
      (switchOrderVar_val S.hy S.ho hyv)
    by_cases hz : yv.eval σ = 0
    · have hf := (switchOrderVar_zero S hj hne hp1 hyv ⟨mayOvertake_symm, mayOvertake_symm⟩).1 hz
      have := hall _ _ res ((m1 p _).2 ⟨rfl, dl, hdl, rfl⟩) ((m2 pp _).2 ⟨rfl, dr, hdr, rfl⟩)
        hres hf
      rw [hz]
      linarith
    · have := hbm.2 fun h => absurd h hz
      linarith
  · cases hok
    intro c hc
    cases hc

end

variable {td : Trains} {st : Stations} {table : List PathRow} {t1 : String} {r : Int}
  {ts : TrainSets} {tt : Timetable} {delays : List (Int × ℚ)} {dmax : ℚ} {cat : Cat} {b : Built}

/-- A plan that keeps the rules of the tables, except that trains pass switches too early by the time in
`e`, gives values in the domains for which the constraints hold, except for these trains. -/
theorem TableRulesCore.near (G : GoodData td st) (hm : AllMeet td) (hta : TurnaroundOK td)
    (hl : LinesClear td) (hcells : SameCells table)
    (h : makeInput td st table t1 r delays = .ok (ts, tt)) (hb : buildProblem ts tt dmax cat = .ok b)
    {π : TablePlan} (R : TableRulesCore td st table t1 r delays dmax cat π)
    {e : String → Int → Int → String → String → ℚ} (h0 : ∀ x t t' p p', 0 ≤ e x t t' p p')
    (hX : CrossWithin td table r π e) :
    ∃ σ, Admissible b σ ∧ (∀ t x d, Departs ts tt b.dv σ (.int t) (.str x) d ↔
        Leaves td t x ∧ d = π.dep t x) ∧
      ∀ nc ∈ b.prob.constraints, nc.2.Holds σ ∨ ∃ x t t' p p',
        nc.1 = sanitize (CIx.switch (.int t') (.int t) (.str x) (.str p') (.str p)).name ∧
        nc.2.sense = .ge ∧ -e x t t' p p' ≤ nc.2.expr.eval σ := by
  have g := gen_of_input G h
  have hround : RoundNames ts := by
    rintro e he ⟨j, j'⟩ hq
    obtain ⟨_, _, _, -, -, rfl, -⟩ := (g.round_iff hm).1 ⟨e.2, Dict.get?_of_mem g.jround_nodup he, hq⟩
    simp [inKey]
  have P := parts hb
  have hv := Gen.plan_valid G h R
  have adm := assign_admissible P hv
  have hn := g.namesOK
  have hw := g.wellFormed
  have S := setting P hn adm
  have hD : Departs ts tt b.dv (π.plan ts tt).assign = (π.plan ts tt).D ts tt := by
    funext j s t; exact propext (assign_departs P j s t)
  have A := assign_agree P hv
  have O := other_agree P hn hw hround A (R.otherRules G hm hta hl hcells h P.hy)
  rw [← hD] at O
  refine ⟨(π.plan ts tt).assign, adm, fun t x d => ?_, ?_⟩
  · rw [hD, g.plan_D hm]
    constructor
    · rintro ⟨_, _, i1, i2, hlv, rfl⟩
      cases i1; cases i2
      exact ⟨hlv, rfl⟩
    · rintro ⟨hlv, rfl⟩
      exact ⟨t, x, rfl, rfl, hlv, rfl⟩
  obtain ⟨c1, c2, c3, c4, c5, c6, e1, e2, e3, e4, e5, e6, ec, -⟩ := built_constraints hb
  have a1 := headway_complete S hw P.o1 O.headway
  have a2 := (stay_iff (σ := (π.plan ts tt).assign) (delayVariables_paths P.hdv) P.o2).2 O.stay
  have a3 := (single_iff S hw P.o3).2 O.singleLine
  have a4 := (track_iff S hw P.o4).2 O.track
  have a5 := (circ_iff S P.o5).2 O.circulation
  rw [e1, allHold_ok] at a1
  rw [e2, allHold_ok] at a2
  rw [e3, allHold_ok] at a3
  rw [e4, allHold_ok] at a4
  rw [e5, allHold_ok] at a5
  have a6 : ∀ c ∈ c6, c.2.Holds (π.plan ts tt).assign ∨ ∃ x t t' p p',
      c.1 = (CIx.switch (.int t') (.int t) (.str x) (.str p') (.str p)).name ∧
      c.2.sense = .ge ∧ -e x t t' p p' ≤ c.2.expr.eval (π.plan ts tt).assign := by
    intro c hc
    unfold switchOccupation at e6
    obtain ⟨en, hen, l1, hl1, hc1⟩ := (collect_ok e6).2 c hc
    obtain ⟨pair, hpair, l2, hl2, hc2⟩ := (collect_ok hl1).2 c hc1
    unfold switchBody at hl2
    split at hl2
    · rename_i j a jp a'
      split at hl2
      · rename_i hss
        rw [sameStock_iff] at hss
        obtain ⟨sp, hsp, hl2⟩ := bind_ok hl2
        obtain ⟨spp, hspp, hl2⟩ := bind_ok hl2
        obtain ⟨k1, hk1, hl2⟩ := bind_ok hl2
        obtain ⟨k2, hk2, hl2⟩ := bind_ok hl2
        cases hl2
        obtain ⟨hnd, hpl⟩ := hw.jswitch en hen _ hpair
        have hne : j ≠ jp := by
          simp only [Dict.keys, List.map_cons, List.map_nil, List.nodup_cons, List.mem_singleton] at hnd
          exact hnd.1
        have n := hn.names.jswitch en hen
        have hj := n.2 _ hpair (j, a) (by simp)
        have hjp := n.2 _ hpair (jp, a') (by simp)
        have hst := hn.stations en hen
        have u1 := departureStation_U hn.names n.1 hsp
        have u2 := departureStation_U hn.names n.1 hspp
        have ga : Dict.get? [(j, a), (jp, a')] j = some a := by simp [Dict.get?]
        have gb : Dict.get? [(j, a), (jp, a')] jp = some a' := by simp [Dict.get?, hne]
        obtain ⟨x, t, t', ex, rfl, rfl, hsw⟩ := g.jswitch_share hm hcells hen hpair hss
        have hpa := hpl (.int t, a) (by simp)
        have hpa' := hpl (.int t', a') (by simp)
        have agree := fun {p pp m mp} (hM : SwitchMoment ts tt ((π.plan ts tt).D ts tt) en.1 (.int t) a p m)
          (hM' : SwitchMoment ts tt ((π.plan ts tt).D ts tt) en.1 (.int t') a' pp mp) =>
          switchFirst_agree P hn hw A hen hpair rfl hM hM'
        have hres1 : ∀ {res}, Res tt res → res = 1 := by
          intro res hres
          have := g.res
          unfold Res at hres
          rw [this] at hres
          cases hres
          rfl
        rcases List.mem_append.1 hc2 with hcm | hcm
        · -- the second train of the pair first
          have key := fun {ε : ℚ} (hε : 0 ≤ ε) hall => switchOcc_near S hst hj hne u1 ga gb hpa hpa' hsp hspp
            hk1 hε hall c hcm
          by_cases hstr : ∃ z z', sp = .str z ∧ spp = .str z'
          · obtain ⟨z, z', rfl, rfl⟩ := hstr
            obtain ⟨k1, k2, k3⟩ := key (h0 x t' t z' z) (by
              intro m mp res hM hM' hres hF
              rw [hD] at hM hM'
              have hF' := (agree hM hM').2 hF
              rw [ex] at hM hM' hF'
              rw [hres1 hres]
              rcases R.switch_within G hm hl h hX hsw.symm hM' hM hF' with q | ⟨_, _, i1, i2, q⟩
              · have := h0 x t' t z' z
                linarith
              · cases i1; cases i2; exact q)
            exact .inr ⟨x, t', t, z', z, by rw [k1, ex], k2, k3⟩
          · obtain ⟨k1, k2, k3⟩ := key (le_refl 0) (by
              intro m mp res hM hM' hres hF
              rw [hD] at hM hM'
              have hF' := (agree hM hM').2 hF
              rw [ex] at hM hM' hF'
              rw [hres1 hres]
              rcases R.switch_within G hm hl h hX hsw.symm hM' hM hF' with q | ⟨_, _, i1, i2, q⟩
              · linarith
              · exact absurd ⟨_, _, i2, i1⟩ hstr)
            left
            unfold Constraint.Holds
            rw [k2]
            simpa using k3
        · have key := fun {ε : ℚ} (hε : 0 ≤ ε) hall => switchOcc_near S hst hjp hne.symm u2 gb ga hpa' hpa hspp hsp
            hk2 hε hall c hcm
          by_cases hstr : ∃ z z', sp = .str z ∧ spp = .str z'
          · obtain ⟨z, z', rfl, rfl⟩ := hstr
            obtain ⟨k1, k2, k3⟩ := key (h0 x t t' z z') (by
              intro mp m res hM' hM hres hF
              rw [hD] at hM hM'
              have hF' := (agree hM hM').1 hF
              rw [ex] at hM hM' hF'
              rw [hres1 hres]
              rcases R.switch_within G hm hl h hX hsw hM hM' hF' with q | ⟨_, _, i1, i2, q⟩
              · have := h0 x t t' z z'
                linarith
              · cases i1; cases i2; exact q)
            exact .inr ⟨x, t, t', z, z', by rw [k1, ex], k2, k3⟩
          · obtain ⟨k1, k2, k3⟩ := key (le_refl 0) (by
              intro mp m res hM' hM hres hF
              rw [hD] at hM hM'
              have hF' := (agree hM hM').1 hF
              rw [ex] at hM hM' hF'
              rw [hres1 hres]
              rcases R.switch_within G hm hl h hX hsw hM hM' hF' with q | ⟨_, _, i1, i2, q⟩
              · linarith
              · exact absurd ⟨_, _, i1, i2⟩ hstr)
            left
            unfold Constraint.Holds
            rw [k2]
            simpa using k3
      · cases hl2
        cases hc2
    · cases hl2
  intro nc hnc
  rw [ec] at hnc
  obtain ⟨c, hc, rfl⟩ := List.mem_map.1 hnc
  simp only [List.mem_append] at hc
  rcases hc with ((((hc | hc) | hc) | hc) | hc) | hc
  · exact .inl (a1 c hc)
  · exact .inl (a2 c hc)
  · exact .inl (a3 c hc)
  · exact .inl (a4 c hc)
  · exact .inl (a5 c hc)
  · refine (a6 c hc).imp id ?_
    rintro ⟨x, t, t', p, p', k1, k2, k3⟩
    exact ⟨x, t, t', p, p', by rw [k1], k2, k3⟩

end Verif
