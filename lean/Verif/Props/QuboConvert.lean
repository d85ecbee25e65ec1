import Verif.Props.QuboBuilt
import Verif.Props.Edt

/-!
# C23: which built problems can be converted

The slack of an inequality needs a range. Inequalities with a precedence always have one, as they can be
switched off. So the conversion fails exactly if a train must wait `d_max` or more at the end of a run or
for its rolling stock.
-/

namespace Verif

variable {ts : TrainSets} {tt : Timetable} {dmax : ℚ} {cat : Cat} {b : Built}

/-- all delays 0 but one, all precedences `β` -/
def pointAt (dmax β : ℚ) (d : Option LpVar) (v : LpVar) : ℚ :=
  match v.vid with
  | .delay _ _ => if some v = d then dmax else 0
  | .order _ _ _ _ => β

/-- an equation, or an inequality that is strict in such a point -/
def Slack (dmax : ℚ) (c : Named) : Prop :=
  c.2.sense = .eq ∨ ∃ β d, (β = 0 ∨ β = 1) ∧ c.2.Strict (pointAt dmax β d)

theorem pointAt_delay {dv : DelayVars} (hdv : delayVariables ts dmax cat = .ok dv) {j s : Val}
    {v : LpVar} (h : delayAt dv j s = .ok v) (β : ℚ) (d : Option LpVar) :
    pointAt dmax β d v = if some v = d then dmax else 0 := by
  rw [delayAt_ok, delayVariables_find hdv] at h
  rw [h.2]
  rfl

theorem pointAt_order {y : OrderVars} (hy : orderVariables ts = .ok y) {a b c e : Val} {v : LpVar}
    (h : at4 y a b c e = .ok v) (β : ℚ) (d : Option LpVar) : pointAt dmax β d v = β := by
  have := (orderVariables_isOrderVar hy h).1
  unfold pointAt
  rw [this]

/-- a precedence can be given the value 1 -/
theorem getP_isOne {y : OrderVars} (hy : orderVariables ts = .ok y) {p q : OPath} {e : LinExpr}
    (h : getP y p q = .ok e) : ∃ β, (β = 0 ∨ β = 1) ∧ ∀ d, e.eval (pointAt dmax β d) = 1 := by
  unfold getP at h
  split at h
  · obtain ⟨v, hv, h⟩ := bind_ok h; cases h
    exact ⟨1, .inr rfl, fun d => by rw [LinExpr.eval_var, pointAt_order hy hv]⟩
  · obtain ⟨v, hv, h⟩ := bind_ok h; cases h
    exact ⟨0, .inl rfl, fun d => by rw [eval_oneMinus, pointAt_order hy hv, sub_zero]⟩

theorem switchOrderVar_one {y : OrderVars} (hy : orderVariables ts = .ok y)
    {s jp sp jpp spp : Val} {e : LinExpr} (h : switchOrderVar s jp sp jpp spp y ts = .ok e) :
    ∃ β, (β = 0 ∨ β = 1) ∧ ∀ d, e.eval (pointAt dmax β d) = 1 := by
  unfold switchOrderVar at h
  split at h
  · split at h
    · obtain ⟨mo, _, h⟩ := bind_ok h
      split at h
      · exact getP_isOne hy (p := (inKey, jp, jpp, s)) (q := (inKey, jpp, jp, s)) h
      · rw [getY3_eq] at h; exact getP_isOne hy h
    · rw [getY3_eq] at h; exact getP_isOne hy h
  · split at h
    · rw [getY4_eq] at h; exact getP_isOne hy h
    · exact getP_isOne hy (p := (inKey, jp, jpp, s)) (q := (inKey, jpp, jp, s)) h

theorem slack_big {l r β : ℚ} {n : String} {c : Constraint} (h0 : 0 < dmax) (hs : c.sense = .ge)
    (hβ : β = 0 ∨ β = 1) (he : c.expr.eval (pointAt dmax β none) = l - (r - getM l r dmax)) :
    Slack dmax (n, c) := by
  refine .inr ⟨β, none, hβ, ?_⟩
  unfold Constraint.Strict
  simp only [hs, he]
  have := le_max_left (r + dmax - l) 1
  unfold getM
  linarith

section
variable {dv : DelayVars} {y : OrderVars} (hdv : delayVariables ts dmax cat = .ok dv)
  (hy : orderVariables ts = .ok y) (h0 : 0 < dmax)
include hdv hy h0

theorem minimalSpan_slack : Emits (Slack dmax) (minimalSpan tt dv y ts dmax) := by
  have key : ∀ s sp j jp, Emits (Slack dmax) (minimalSpanConstrain s sp j jp tt dv y ts dmax) := by
    intro s sp j jp
    unfold minimalSpanConstrain
    refine emits_bind fun lhs _ => emits_bind fun e _ => emits_bind fun hw _ => ?_
    simp only
    split
    · refine emits_bind fun dl hdl => emits_bind fun dr hdr => emits_bind fun yv hyv => ?_
      rw [getY3_eq] at hyv
      obtain ⟨β, hβ, h1⟩ := getP_isOne (dmax := dmax) hy hyv
      refine emits_single (slack_big (l := lhs) (r := e + hw) h0 rfl hβ ?_)
      simp only [Constraint.mkGE, LinExpr.eval_sub, LinExpr.eval_add, LinExpr.eval_num, LinExpr.eval_var,
        LinExpr.eval_smul, pointAt_delay hdv hdl, pointAt_delay hdv hdr, h1]
      simp
    · exact emits_nil
  unfold minimalSpan
  exact emits_collect fun e _ => emits_collect fun e2 _ => emits_collect fun js _ =>
    emits_collect fun p _ => emits_append (key _ _ _ _) (key _ _ _ _)

theorem singleLine_slack : Emits (Slack dmax) (singleLine tt dv y ts dmax) := by
  have key : ∀ s sp j jp, Emits (Slack dmax) (singleLineConstrain s sp j jp tt dv y ts dmax) := by
    intro s sp j jp
    unfold singleLineConstrain
    refine emits_bind fun lhs _ => emits_bind fun e _ => emits_bind fun hw _ => ?_
    simp only
    split
    · refine emits_bind fun dl hdl => emits_bind fun dr hdr => emits_bind fun yv hyv => ?_
      rw [getY4_eq] at hyv
      obtain ⟨β, hβ, h1⟩ := getP_isOne (dmax := dmax) hy hyv
      refine emits_single (slack_big (l := lhs) (r := e + hw) h0 rfl hβ ?_)
      simp only [Constraint.mkGE, LinExpr.eval_sub, LinExpr.eval_add, LinExpr.eval_num, LinExpr.eval_var,
        LinExpr.eval_smul, pointAt_delay hdv hdl, pointAt_delay hdv hdr, h1]
      simp
    · exact emits_nil
  unfold singleLine
  refine emits_collect fun e _ => emits_collect fun p _ => ?_
  split
  · exact emits_append (key _ _ _ _) (key _ _ _ _)
  · exact emits_nil

omit hdv hy h0 in
theorem slack_eq {n : String} {c : Constraint} (h : c.sense = .eq) : Slack dmax (n, c) := .inl h

omit hdv hy h0 in
theorem keepTrainsOrder_slack {s j jp : Val} : Emits (Slack dmax) (keepTrainsOrder s j jp y ts) := by
  unfold keepTrainsOrder
  refine emits_bind fun path _ => emits_bind fun sp _ => ?_
  split
  · exact emits_nil
  · split
    · refine emits_bind fun g _ => ?_
      split
      · refine emits_bind fun mo _ => ?_
        split
        · refine emits_bind fun y1 h1 => emits_bind fun y2 h2 => emits_bind fun y3 h3 => ?_
          split
          · exact emits_single (slack_eq rfl)
          · exact emits_nil
        · split
          · refine emits_bind fun l hl => emits_bind fun r hr => ?_
            exact emits_single (slack_eq rfl)
          · exact emits_nil
      · exact emits_nil
    · exact emits_nil

theorem trainsOrderAtS_slack {s j jp : Val} :
    Emits (Slack dmax) (trainsOrderAtS s j jp tt dv y ts dmax) := by
  unfold trainsOrderAtS
  simp only
  split
  · refine emits_bind fun l hl => emits_bind fun r hr => ?_
    exact emits_single (slack_eq rfl)
  · refine emits_bind fun x hx => emits_bind fun e he => emits_bind fun res hres => ?_
    split
    · refine emits_bind fun l hl => emits_bind fun yv hyv => emits_bind fun dj hdj => ?_
      rw [getY3_eq] at hyv
      obtain ⟨β, hβ, h1⟩ := getP_isOne (dmax := dmax) hy hyv
      refine emits_single (slack_big (l := x.1) (r := e + res) h0 rfl hβ ?_)
      have hl' : l.eval (pointAt dmax β none) = x.1 := by
        unfold arrivalExpr at hl
        split at hl
        · obtain ⟨v, hv, hl⟩ := bind_ok hl; cases hl
          simp [pointAt_delay hdv hv]
        · cases hl; simp
      simp only [Constraint.mkGE, LinExpr.eval_sub, LinExpr.eval_num, LinExpr.eval_var,
        LinExpr.eval_smul, pointAt_delay hdv hdj, h1, hl']
      simp
    · exact emits_nil

theorem trackOccupation_slack : Emits (Slack dmax) (trackOccupation tt dv y ts dmax) := by
  unfold trackOccupation
  refine emits_collect fun e _ => emits_collect fun js _ => emits_collect fun p _ => ?_
  unfold trackOccBody
  split
  · refine emits_append ?_ ?_
    · unfold trackOccFirst
      refine emits_bind fun sk _ => ?_
      split
      · exact emits_append keepTrainsOrder_slack (trainsOrderAtS_slack hdv hy h0)
      · exact emits_nil
    · unfold trackOccSecond
      refine emits_bind fun sk _ => ?_
      split
      · exact trainsOrderAtS_slack hdv hy h0
      · exact emits_nil
  · exact emits_nil

theorem switchOccupation_slack : Emits (Slack dmax) (switchOccupation tt dv y ts dmax) := by
  have key : ∀ s jp sp jpp spp, Emits (Slack dmax) (switchOcc s jp sp jpp spp tt dv y ts dmax) := by
    intro s jp sp jpp spp
    unfold switchOcc
    refine emits_bind fun l hl => emits_bind fun r hr => emits_bind fun res hres =>
      emits_bind fun pl hpl => emits_bind fun pr hpr => ?_
    simp only
    split
    · refine emits_bind fun yv hyv => emits_bind fun dl hdl => emits_bind fun dr hdr => ?_
      obtain ⟨β, hβ, h1⟩ := switchOrderVar_one (dmax := dmax) hy hyv
      refine emits_single (slack_big (l := l + pl) (r := r + res + pr) h0 rfl hβ ?_)
      simp only [Constraint.mkGE, LinExpr.eval_sub, LinExpr.eval_add, LinExpr.eval_num, LinExpr.eval_var,
        LinExpr.eval_smul, pointAt_delay hdv hdl, pointAt_delay hdv hdr, h1]
      simp
    · exact emits_nil
  unfold switchOccupation
  refine emits_collect fun e _ => emits_collect fun pair _ => ?_
  unfold switchBody
  split
  · split
    · refine emits_bind fun sp _ => emits_bind fun spp _ => ?_
      exact emits_append (key _ _ _ _ _) (key _ _ _ _ _)
    · exact emits_nil
  · exact emits_error

end

/-! ## Stays and turnarounds -/

/-- no train that runs without delay has to wait `d_max` or more at the end of a run, and no
rolling stock comes `d_max` or more too late for its next train -/
def Room (ts : TrainSets) (tt : Timetable) (dmax : ℚ) : Prop :=
  (∀ j ∈ ts.J, ∀ s p, PrevOf ts j s p → p ≠ .none → HasDelay ts j s → ∀ e ep w st,
    earliestDepTime ts.paths tt j s = .ok e → earliestDepTime ts.paths tt j p = .ok ep →
    Pass tt j p s w → Stop tt j s st → ep + w + st < e + dmax) ∧
  ∀ c ∈ ts.Jround, ∀ q ∈ c.2, ∀ p, PrevOf ts q.1 c.1 p → ∀ e ep w pr,
    earliestDepTime ts.paths tt q.2 c.1 = .ok e → earliestDepTime ts.paths tt q.1 p = .ok ep →
    Pass tt q.1 p c.1 w → Prep tt q.2 c.1 pr → ep + w + pr < e + dmax

/-- a constraint `d - dp + k ≥ 0` for two delays -/
def Gap (dv : DelayVars) (k : ℚ) (c : Constraint) : Prop :=
  ∃ j s j' s' d dp, delayAt dv j s = .ok d ∧ delayAt dv j' s' = .ok dp ∧ d ≠ dp ∧
    c = ⟨⟨[(d, 1), (dp, -1)], k⟩, .ge⟩

theorem gap_slack {dv : DelayVars} (hdv : delayVariables ts dmax cat = .ok dv) {k : ℚ} {n : String}
    {c : Constraint} (h : Gap dv k c) (hk : 0 < dmax + k) : Slack dmax (n, c) := by
  obtain ⟨j, s, j', s', d, dp, hd, hdp, hne, rfl⟩ := h
  refine .inr ⟨0, some d, .inl rfl, ?_⟩
  simp only [Constraint.Strict, LinExpr.eval, List.map_cons, List.map_nil, List.sum_cons, List.sum_nil,
    pointAt_delay hdv hd, pointAt_delay hdv hdp, Option.some.injEq, if_true, if_neg hne.symm]
  linarith

/-- the slack of such a constraint has a range only if `d_max + k > 0` -/
theorem gap_converts {dv : DelayVars} (hdv : delayVariables ts dmax cat = .ok dv) {k : ℚ} {n : String}
    {c : Constraint} (h : Gap dv k c) {e f : BitExpr} (hf : bqmPenaltyExpr n c e = .ok f) :
    0 < dmax + k := by
  obtain ⟨j, s, j', s', d, dp, hd, hdp, hne, rfl⟩ := h
  simp only [bqmPenaltyExpr] at hf
  obtain ⟨ub, hub, hf⟩ := bind_ok hf
  obtain ⟨sl, hsl, _⟩ := bind_ok hf
  rw [delayAt_ok, delayVariables_find hdv] at hd hdp
  have h1 : d.up = dmax := by rw [hd.2]; rfl
  have h2 : dp.low = 0 := by rw [hdp.2]; rfl
  unfold getSlackUb at hub
  simp only [lowestValue, List.map_cons, List.map_nil, List.sum_cons, List.sum_nil, h1, h2] at hub
  rw [if_pos (by norm_num : (-(1 : ℚ)) < 0), if_neg (by norm_num : ¬ (- -(1 : ℚ)) < 0)] at hub
  split at hub
  · cases hub
    unfold logEncInteger at hsl
    split at hsl
    · rename_i hlt
      norm_num at hlt
      linarith
    · cases hsl
  · cases hub

theorem gap_of {dv : DelayVars} {j s j' s' : Val} {d dp : LpVar} (hd : delayAt dv j s = .ok d)
    (hdp : delayAt dv j' s' = .ok dp) (hne : d ≠ dp) (l e p st : ℚ) :
    Gap dv (l - (e + p + st)) (.mkGE ((LinExpr.var d).add (.num l))
      ((((LinExpr.var dp).add (.num e)).add (.num p)).add (.num st))) := by
  refine ⟨j, s, j', s', d, dp, hd, hdp, hne, ?_⟩
  simp [Constraint.mkGE, LinExpr.sub, LinExpr.smul, LinExpr.add, LinExpr.var, LinExpr.num,
    LinExpr.addTerm, hne]
  ring

theorem gap_of' {dv : DelayVars} {j s j' s' : Val} {d dp : LpVar} (hd : delayAt dv j s = .ok d)
    (hdp : delayAt dv j' s' = .ok dp) (hne : d ≠ dp) (l r : ℚ) :
    Gap dv (l - r) (.mkGE ((LinExpr.num l).add (.var d)) ((LinExpr.num r).add (.var dp))) := by
  refine ⟨j, s, j', s', d, dp, hd, hdp, hne, ?_⟩
  simp [Constraint.mkGE, LinExpr.sub, LinExpr.smul, LinExpr.add, LinExpr.var, LinExpr.num,
    LinExpr.addTerm, hne]
  ring

theorem prevOn_ne {path : List Val} {s p : Val} (h : PrevOn path s p) (hn : Val.none ∉ path) :
    s ≠ p := by
  rcases h with ⟨l, r, rfl, _, h⟩ | ⟨r, rfl, rfl⟩
  · exact h.symm
  · rintro rfl; simp at hn

theorem delays_ne {dv : DelayVars} (hdv : delayVariables ts dmax cat = .ok dv) {j s j' s' : Val}
    {d dp : LpVar} (hd : delayAt dv j s = .ok d) (hdp : delayAt dv j' s' = .ok dp) (h : s ≠ s') :
    d ≠ dp := by
  rw [delayAt_ok, delayVariables_find hdv] at hd hdp
  rw [hd.2, hdp.2]
  intro he
  have := congrArg LpVar.vid he
  simp only [dVar, VarId.delay.injEq] at this
  exact h this.2

section
variable {dv : DelayVars} (hdv : delayVariables ts dmax cat = .ok dv)
  (hnn : ∀ j path, Dict.get? ts.paths j = some path → Val.none ∉ path)
include hdv hnn

theorem stay_shape {j s : Val} {cs : List Named} (h : minimalStayConstrain j s tt dv ts = .ok cs) :
    (∀ c ∈ cs, ∃ p e ep w st, PrevOf ts j s p ∧ p ≠ .none ∧ HasDelay ts j s ∧
      earliestDepTime ts.paths tt j s = .ok e ∧ earliestDepTime ts.paths tt j p = .ok ep ∧
      Pass tt j p s w ∧ Stop tt j s st ∧ Gap dv (e - (ep + w + st)) c.2) ∧
    ∀ p e ep w st, PrevOf ts j s p → p ≠ .none → HasDelay ts j s →
      earliestDepTime ts.paths tt j s = .ok e → earliestDepTime ts.paths tt j p = .ok ep →
      Pass tt j p s w → Stop tt j s st → ∃ c ∈ cs, Gap dv (e - (ep + w + st)) c.2 := by
  unfold minimalStayConstrain at h
  obtain ⟨path, hpath, h⟩ := bind_ok h
  obtain ⟨sp, hsp, h⟩ := bind_ok h
  have hprev : PrevOf ts j s sp := prevOf_iff.2 ⟨path, hpath, hsp⟩
  have hne : s ≠ sp := by
    obtain ⟨path', h1, h2⟩ := hprev
    exact prevOn_ne h2 (hnn _ _ h1)
  split at h
  · rename_i hsn
    obtain ⟨dj, hdj, h⟩ := bind_ok h
    split at h
    · rename_i d hd
      obtain ⟨l, hl, h⟩ := bind_ok h
      obtain ⟨dp, hdp, h⟩ := bind_ok h
      obtain ⟨e, he, h⟩ := bind_ok h
      obtain ⟨w, hw, h⟩ := bind_ok h
      obtain ⟨st, hst, h⟩ := bind_ok h
      cases h
      rw [tauPass_ok] at hw
      rw [tauStop_ok] at hst
      have hdl : delayAt dv j s = .ok d := by
        unfold delayAt; rw [hdj]; exact Dict.at!_ok.2 hd
      have hg := gap_of hdl hdp (delays_ne hdv hdl hdp hne) l e w st
      have hhas := ((delayVariables_find hdv).1 (delayAt_ok.1 hdl)).1
      constructor
      · intro c hc
        rw [List.mem_singleton] at hc
        subst hc
        exact ⟨sp, l, e, w, st, hprev, hsn, hhas, hl, he, hw, hst, hg⟩
      · intro p e' ep w' st' hp _ _ h1 h2 h3 h4
        cases prevOf_unique hp hprev
        rw [hl] at h1; cases h1
        rw [he] at h2; cases h2
        unfold Pass at hw h3
        unfold Stop at hst h4
        rw [hw] at h3; cases h3
        rw [hst] at h4; cases h4
        exact ⟨_, List.mem_singleton_self _, hg⟩
    · rename_i hd
      cases h
      refine ⟨fun c hc => (by cases hc), fun p e ep w st _ _ hhas => ?_⟩
      have := (delayVariables_find hdv (v := dVar j s dmax cat)).2 ⟨hhas, rfl⟩
      rw [Dict.at!_ok] at hdj
      simp [find2, hdj, hd] at this
  · rename_i hsn
    cases h
    refine ⟨fun c hc => (by cases hc), fun p e ep w st hp hpn => ?_⟩
    cases prevOf_unique hp hprev
    exact absurd hpn hsn

theorem circ_shape {s j jp : Val} {cs : List Named} (h : circBody s j jp tt dv ts dmax = .ok cs) :
    (∀ c ∈ cs, ∃ p e ep w pr, PrevOf ts j s p ∧
      earliestDepTime ts.paths tt jp s = .ok e ∧ earliestDepTime ts.paths tt j p = .ok ep ∧
      Pass tt j p s w ∧ Prep tt jp s pr ∧ Gap dv (e - (ep + w + pr)) c.2) ∧
    ∀ p e ep w pr, PrevOf ts j s p →
      earliestDepTime ts.paths tt jp s = .ok e → earliestDepTime ts.paths tt j p = .ok ep →
      Pass tt j p s w → Prep tt jp s pr → e < ep + w + pr + dmax →
        ∃ c ∈ cs, Gap dv (e - (ep + w + pr)) c.2 := by
  unfold circBody at h
  obtain ⟨path, hpath, h⟩ := bind_ok h
  obtain ⟨sp, hsp, h⟩ := bind_ok h
  obtain ⟨l, hl, h⟩ := bind_ok h
  obtain ⟨rhs, hr, h⟩ := bind_ok h
  obtain ⟨w, hw, h⟩ := bind_ok h
  obtain ⟨pr, hpr, h⟩ := bind_ok h
  rw [tauPass_ok] at hw
  rw [tauPrep_ok] at hpr
  have hprev : PrevOf ts j s sp := prevOf_iff.2 ⟨path, hpath, hsp⟩
  have hne : s ≠ sp := by
    obtain ⟨path', h1, h2⟩ := hprev
    exact prevOn_ne h2 (hnn _ _ h1)
  simp only at h
  have huse : ∀ p e ep w' pr', PrevOf ts j s p →
      earliestDepTime ts.paths tt jp s = .ok e → earliestDepTime ts.paths tt j p = .ok ep →
      Pass tt j p s w' → Prep tt jp s pr' → p = sp ∧ e = rhs ∧ ep = l ∧ w' = w ∧ pr' = pr := by
    intro p e ep w' pr' hp h1 h2 h3 h4
    cases prevOf_unique hp hprev
    rw [hr] at h1; cases h1
    rw [hl] at h2; cases h2
    unfold Pass at hw h3
    unfold Prep at hpr h4
    rw [hw] at h3; cases h3
    rw [hpr] at h4; cases h4
    exact ⟨rfl, rfl, rfl, rfl, rfl⟩
  split at h
  · obtain ⟨dl, hdl, h⟩ := bind_ok h
    obtain ⟨dr, hdr, h⟩ := bind_ok h
    cases h
    have hg := gap_of' hdr hdl (delays_ne hdv hdr hdl hne) rhs (l + w + pr)
    constructor
    · intro c hc
      rw [List.mem_singleton] at hc
      subst hc
      exact ⟨sp, rhs, l, w, pr, hprev, hr, hl, hw, hpr, hg⟩
    · intro p e ep w' pr' hp h1 h2 h3 h4 _
      obtain ⟨rfl, rfl, rfl, rfl, rfl⟩ := huse p e ep w' pr' hp h1 h2 h3 h4
      exact ⟨_, List.mem_singleton_self _, hg⟩
  · rename_i hdrop
    cases h
    refine ⟨fun c hc => (by cases hc), fun p e ep w' pr' hp h1 h2 h3 h4 h5 => ?_⟩
    obtain ⟨rfl, rfl, rfl, rfl, rfl⟩ := huse p e ep w' pr' hp h1 h2 h3 h4
    exact absurd h5 hdrop

theorem minimalStay_slack (hr : Room ts tt dmax) : Emits (Slack dmax) (minimalStay tt dv ts) := by
  unfold minimalStay
  refine emits_collect fun j hj => emits_bind fun path _ => emits_collect fun s _ => ?_
  intro cs hcs c hc
  obtain ⟨p, e, ep, w, st, h1, h2, h3, h4, h5, h6, h7, hg⟩ := (stay_shape hdv hnn hcs).1 c hc
  have := hr.1 j hj s p h1 h2 h3 e ep w st h4 h5 h6 h7
  exact gap_slack hdv hg (by linarith)

theorem rollingStockCirc_slack (hr : Room ts tt dmax) :
    Emits (Slack dmax) (rollingStockCirc tt dv ts dmax) := by
  unfold rollingStockCirc
  refine emits_collect fun x hx => emits_collect fun q hq => ?_
  intro cs hcs c hc
  obtain ⟨p, e, ep, w, st, h1, h4, h5, h6, h7, hg⟩ := (circ_shape hdv hnn hcs).1 c hc
  have := hr.2 x hx q hq p h1 e ep w st h4 h5 h6 h7
  exact gap_slack hdv hg (by linarith)

end

theorem collect_part {α β : Type} {xs : List α} {f : α → Py (List β)} {r : List β}
    (h : collect xs f = .ok r) {x : α} (hx : x ∈ xs) : ∃ a, f x = .ok a ∧ ∀ c ∈ a, c ∈ r := by
  induction xs generalizing r with
  | nil => cases hx
  | cons y xs ih =>
    simp only [collect] at h
    split at h
    · cases h
    rename_i a ha
    split at h
    · cases h
    rename_i b hb
    cases h
    rcases List.mem_cons.1 hx with rfl | hx
    · exact ⟨a, ha, fun c hc => List.mem_append_left _ hc⟩
    · obtain ⟨a', h1, h2⟩ := ih hb hx
      exact ⟨a', h1, fun c hc => List.mem_append_right _ (h2 c hc)⟩

/-- the points are in the domains -/
theorem pointAt_domains (hb : buildProblem ts tt dmax .integer = .ok b) (h0 : 0 < dmax)
    (hd : IsInt dmax) {β : ℚ} (hβ : β = 0 ∨ β = 1) (d : Option LpVar) :
    InDomains b.prob (pointAt dmax β d) := by
  intro v hv
  have P := parts hb
  rcases vars_stored hb hv with ⟨j, s, h⟩ | ⟨x, y, z, u, h⟩
  · rw [pointAt_delay P.hdv h]
    rw [delayAt_ok, delayVariables_find P.hdv] at h
    rw [h.2]
    refine ⟨?_, ?_, fun _ => ?_⟩
    · show (0 : ℚ) ≤ _; split <;> linarith
    · show _ ≤ dmax; split <;> linarith
    · split
      · exact hd
      · exact ⟨0, by simp⟩
  · rw [pointAt_order P.hy h]
    obtain ⟨_, h2, h3, _⟩ := orderVariables_isOrderVar P.hy h
    unfold InDomain
    rw [h2, h3]
    rcases hβ with rfl | rfl
    · exact ⟨le_refl _, by norm_num, fun _ => ⟨0, by norm_num⟩⟩
    · exact ⟨by norm_num, le_refl _, fun _ => ⟨1, by norm_num⟩⟩

/-- room from the constants of the constraints between two delays -/
theorem room_of_gaps {D E : ℚ} (hb : buildProblem ts tt D cat = .ok b)
    (hnn : ∀ j path, Dict.get? ts.paths j = some path → Val.none ∉ path) (hE : 0 < D + E)
    (hall : ∀ nc ∈ b.prob.constraints, ∀ k, Gap b.dv k nc.2 → 0 < E + k) : Room ts tt E := by
  have P := parts hb
  obtain ⟨c1, c2, c3, c4, c5, c6, h1, h2, h3, h4, h5, h6, he, _⟩ := built_constraints hb
  have hall : ∀ nc ∈ c1 ++ c2 ++ c3 ++ c4 ++ c5 ++ c6, ∀ k, Gap b.dv k nc.2 → 0 < E + k :=
    fun nc hnc k hk => hall (sanitize nc.1, nc.2) (by rw [he]; exact List.mem_map.2 ⟨nc, hnc, rfl⟩) k hk
  constructor
  · intro j hj s p hp hpn hhas e ep w st ha hb' hw hst
    unfold minimalStay at h2
    obtain ⟨path, hpath, hpo⟩ := hp
    have hs := prevOn_mem hpo
    obtain ⟨cs, hcs, hsub⟩ := collect_part h2 hj
    obtain ⟨path', hp', hcs⟩ := bind_ok hcs
    rw [Dict.at!_ok, hpath] at hp'
    cases hp'
    obtain ⟨cs', hcs', hsub'⟩ := collect_part hcs hs
    obtain ⟨c, hc, hg⟩ := (stay_shape P.hdv hnn hcs').2 p e ep w st ⟨path, hpath, hpo⟩ hpn hhas ha hb' hw hst
    have := hall c (by have := hsub c (hsub' c hc); simp [this]) _ hg
    linarith
  · intro x hx y hy p hp e ep w pr ha hb' hw hpr
    unfold rollingStockCirc at h5
    obtain ⟨cs, hcs, hsub⟩ := collect_part h5 hx
    obtain ⟨cs', hcs', hsub'⟩ := collect_part hcs hy
    by_cases hlt : e < ep + w + pr + D
    · obtain ⟨c, hc, hg⟩ := (circ_shape P.hdv hnn hcs').2 p e ep w pr hp ha hb' hw hpr hlt
      have := hall c (by have := hsub c (hsub' c hc); simp [this]) _ hg
      linarith
    · linarith

/-- a solution for a smaller `d_max` leaves room -/
theorem room_of_solution {D : ℚ} (hb : buildProblem ts tt D cat = .ok b)
    (hnn : ∀ j path, Dict.get? ts.paths j = some path → Val.none ∉ path) (h0 : 0 ≤ D)
    {σ : LpVar → ℚ} (hf : Feasible b σ) (hlt : D < dmax) : Room ts tt dmax := by
  refine room_of_gaps hb hnn (by linarith) ?_
  rintro nc hnc k ⟨j, s, j', s', d, dp, hd, hdp, -, he⟩
  have := hf.sat nc hnc
  rw [he] at this
  simp only [Constraint.Holds, LinExpr.eval, List.map_cons, List.map_nil, List.sum_cons, List.sum_nil]
    at this
  have q1 := delay_bounds (parts hb).hdv hf.adm.delays hd
  have q2 := delay_bounds (parts hb).hdv hf.adm.delays hdp
  linarith

/-- **C23, exact condition.** The problem built from whole-minute times can be converted to a QUBO
exactly if no train without delay has to wait `d_max` or more for the end of a run or for its rolling
stock. -/
theorem C23_converts (hb : buildProblem ts tt dmax .integer = .ok b) (hi : IntTimes tt)
    (hd : IsInt dmax) (h0 : 0 < dmax)
    (hnn : ∀ j path, Dict.get? ts.paths j = some path → Val.none ∉ path)
    (hne : b.prob.constraints ≠ []) :
    (∃ q, convertToPyqubo b.prob = .ok q) ↔ Room ts tt dmax := by
  have P := parts hb
  constructor
  · rintro ⟨q, hq⟩
    unfold convertToPyqubo at hq
    obtain ⟨tr, _, hq⟩ := bind_ok hq
    obtain ⟨ps, hps, _⟩ := bind_ok hq
    refine room_of_gaps hb hnn (by linarith) fun nc hnc k hk => ?_
    obtain ⟨pen, _, hpen⟩ := forall₂_left (mapPy_forall₂ hps) hnc
    unfold bqmPenalty at hpen
    obtain ⟨e, _, hpen⟩ := bind_ok hpen
    obtain ⟨ph, _, hpen⟩ := bind_ok hpen
    obtain ⟨f, hf, _⟩ := bind_ok hpen
    exact gap_converts P.hdv hk hf
  · intro hr
    obtain ⟨c1, c2, c3, c4, c5, c6, h1, h2, h3, h4, h5, h6, he, _⟩ := built_constraints hb
    refine C23_succeeds (built_integerData hb hi hd) ?_ (C20_classes hb).2.2 hne ?_
    · intro v hv
      rcases vars_stored hb hv with ⟨j, s, h⟩ | ⟨x, y, z, u, h⟩
      · rw [delayAt_ok, delayVariables_find P.hdv] at h
        rw [h.2]
        exact ⟨rfl, isInt_zero, hd, h0⟩
      · obtain ⟨_, h2, h3, h4⟩ := orderVariables_isOrderVar P.hy h
        rw [h2, h3]
        exact ⟨h4, isInt_zero, isInt_one, by norm_num⟩
    · have hs : ∀ nc ∈ b.prob.constraints, Slack dmax nc := by
        intro nc hnc
        rw [he] at hnc
        obtain ⟨c, hc, rfl⟩ := List.mem_map.1 hnc
        have : Slack dmax c := by
          simp only [List.mem_append] at hc
          rcases hc with ((((hn | hn) | hn) | hn) | hn) | hn
          · exact minimalSpan_slack P.hdv P.hy h0 c1 h1 c hn
          · exact minimalStay_slack P.hdv hnn hr c2 h2 c hn
          · exact singleLine_slack P.hdv P.hy h0 c3 h3 c hn
          · exact trackOccupation_slack P.hdv P.hy h0 c4 h4 c hn
          · exact rollingStockCirc_slack P.hdv hnn hr c5 h5 c hn
          · exact switchOccupation_slack P.hdv P.hy h0 c6 h6 c hn
        exact this
      intro nc hnc
      rcases hs nc hnc with h | ⟨β, d, hβ, h⟩
      · exact ⟨_, pointAt_domains hb h0 hd (.inl rfl) .none, by simp [Constraint.Strict, h]⟩
      · exact ⟨_, pointAt_domains hb h0 hd hβ d, h⟩

theorem exampleTurn_int : IntTimes exampleTurnTt := by
  have key : ∀ d : Dict String ℚ, (d.all fun e => decide (e.2.den = 1)) = true → IntValues d := by
    intro d hd e he
    rw [List.all_eq_true] at hd
    exact isInt_iff_den.2 (by simpa using hd e he)
  refine ⟨key _ (by decide +kernel), key _ (by decide +kernel), key _ (by decide +kernel),
    key _ (by decide +kernel), ?_, ?_, key _ (by decide +kernel)⟩
  · intro r hr; cases hr; exact isInt_one
  · intro d hd; cases hd

/-- train 3 needs until 7 to arrive and get ready as train 4, which could leave at 5: with
`d_max = 3` there is room and the problem can be converted, with `d_max = 2` neither -/
example : Room exampleTurn exampleTurnTt 3 ∧ ¬ Room exampleTurn exampleTurnTt 2 ∧
    (∃ b q, buildProblem exampleTurn exampleTurnTt 3 .integer = .ok b ∧ b.prob.constraints ≠ [] ∧
      convertToPyqubo b.prob = .ok q) ∧
    ∃ b, buildProblem exampleTurn exampleTurnTt 2 .integer = .ok b ∧ b.prob.constraints ≠ [] ∧
      ∀ q, convertToPyqubo b.prob ≠ .ok q := by
  have hnn : ∀ j path, Dict.get? exampleTurn.paths j = some path → Val.none ∉ path := by
    intro j path h
    have := Dict.mem_of_get? h
    simp only [exampleTurn, List.mem_cons, Prod.mk.injEq, List.not_mem_nil, or_false] at this
    rcases this with ⟨-, rfl⟩ | ⟨-, rfl⟩ <;> decide
  have h3 : (match buildProblem exampleTurn exampleTurnTt 3 .integer with
    | .ok b => !b.prob.constraints.isEmpty && (match convertToPyqubo b.prob with
      | .ok _ => true
      | .error _ => false)
    | .error _ => false) = true := by decide +kernel
  have h2 : (match buildProblem exampleTurn exampleTurnTt 2 .integer with
    | .ok b => !b.prob.constraints.isEmpty && (match convertToPyqubo b.prob with
      | .ok _ => false
      | .error _ => true)
    | .error _ => false) = true := by decide +kernel
  split at h3
  · rename_i b3 hb3
    split at h2
    · rename_i b2 hb2
      rw [Bool.and_eq_true] at h3 h2
      obtain ⟨n3, h3⟩ := h3
      obtain ⟨n2, h2⟩ := h2
      have n3' : b3.prob.constraints ≠ [] := by rintro h; simp [h] at n3
      have n2' : b2.prob.constraints ≠ [] := by rintro h; simp [h] at n2
      have e3 := C23_converts hb3 exampleTurn_int ⟨3, by norm_num⟩ (by norm_num) hnn n3'
      have e2 := C23_converts hb2 exampleTurn_int ⟨2, by norm_num⟩ (by norm_num) hnn n2'
      have q2 : ∀ q, convertToPyqubo b2.prob ≠ .ok q := by
        intro q hq
        simp [hq] at h2
      cases hq : convertToPyqubo b3.prob with
      | error e => simp [hq] at h3
      | ok q =>
        exact ⟨e3.1 ⟨q, hq⟩, fun h => (let ⟨q, hq⟩ := e2.2 h; q2 q hq), ⟨b3, q, hb3, n3', hq⟩,
          b2, hb2, n2', q2⟩
    · cases h2
  · cases h3

end Verif
