import Verif.Props.Names
import Verif.Props.Objective

/-!
# Values read back from a solved problem: C18, C19
-/

namespace Verif

variable {ts : TrainSets} {tt : Timetable} {dmax : ℚ} {cat : Cat} {b : Built} {sol : LpVar → ℚ}

/-- the printed names of the trains and stations contain no underscore and no character that PuLP
replaces, and different trains (stations) have different printed names -/
structure CleanNames (ts : TrainSets) : Prop where
  clean : ∀ c ∈ Calls ts, Clean c.1 ∧ Clean c.2
  train : ∀ c ∈ Calls ts, ∀ c' ∈ Calls ts, c.1.render = c'.1.render → c.1 = c'.1
  station : ∀ c ∈ Calls ts, ∀ c' ∈ Calls ts, c.2.render = c'.2.render → c.2 = c'.2

/-- the only variable that can be found under the name of a delay is this delay -/
theorem found_is_delay (hb : buildProblem ts tt dmax cat = .ok b) (hc : CleanNames ts)
    {j s : Val} (hjs : (j, s) ∈ Calls ts) {v : LpVar} (hv : v ∈ b.prob.vars)
    (hn : v.name = "Delays_" ++ key2 j s) : delayAt b.dv j s = .ok v := by
  have P := parts hb
  rcases vars_stored hb hv with ⟨j', s', hd⟩ | ⟨x, z, c, d, ho⟩
  · have hd0 := hd
    rw [delayAt_ok, delayVariables_find P.hdv] at hd
    obtain ⟨hdel, rfl⟩ := hd
    have hm : (j', s') ∈ Calls ts := mem_calls.2 ⟨hdel.1, hdel.2.1⟩
    obtain ⟨c1, c2⟩ := hc.clean _ hm
    rw [dVar_name c1 c2] at hn
    have hk : key2 j' s' = key2 j s := by
      have := congrArg String.toList hn
      simp only [String.toList_append, List.append_cancel_left_eq] at this
      exact String.ext this
    obtain ⟨h1, h2⟩ := C52_keys_partial.1 c1.plain (hc.clean _ hjs).1.plain hk
    have e1 : j' = j := hc.train _ hm _ hjs h1
    have e2 : s' = s := hc.station _ hm _ hjs h2
    subst e1 e2
    exact hd0
  · exfalso
    have h1 : "Delays_".toList = ['D', 'e', 'l', 'a', 'y', 's', '_'] := by decide
    rcases order_head (orderVariables_isYZ P.hy ho) with ⟨l, hl⟩ | ⟨l, hl⟩ <;>
    · rw [hn, String.toList_append, h1] at hl
      simp at hl

theorem find_delay (hb : buildProblem ts tt dmax cat = .ok b) (hc : CleanNames ts)
    {j s : Val} (hjs : (j, s) ∈ Calls ts) {v : LpVar} (hd : delayAt b.dv j s = .ok v)
    (hv : v ∈ b.prob.vars) :
    (b.prob.vars.find? fun v => v.name = "Delays_" ++ key2 j s) = some v := by
  have P := parts hb
  have hd' := hd
  rw [delayAt_ok, delayVariables_find P.hdv] at hd'
  obtain ⟨_, rfl⟩ := hd'
  obtain ⟨c1, c2⟩ := hc.clean _ hjs
  cases hf : b.prob.vars.find? fun v => v.name = "Delays_" ++ key2 j s with
  | none =>
    rw [List.find?_eq_none] at hf
    exact absurd (dVar_name c1 c2) (by simpa using hf _ hv)
  | some w =>
    have hw := List.mem_of_find?_eq_some hf
    have hwn := List.find?_some hf
    simp only [decide_eq_true_eq] at hwn
    have := found_is_delay hb hc hjs hw hwn
    rw [hd] at this
    rw [Except.ok.inj this]

theorem find_none (hb : buildProblem ts tt dmax cat = .ok b) (hc : CleanNames ts)
    {j s : Val} (hjs : (j, s) ∈ Calls ts)
    (hd : ∀ v, delayAt b.dv j s = .ok v → v ∉ b.prob.vars) :
    (b.prob.vars.find? fun v => v.name = "Delays_" ++ key2 j s) = .none := by
  rw [List.find?_eq_none]
  intro v hv hn
  simp only [decide_eq_true_eq] at hn
  exact hd v (found_is_delay hb hc hjs hv hn) hv

/-- weighted delays are variables of the problem -/
theorem weighted_occurs (hb : buildProblem ts tt dmax cat = .ok b) {j s : Val}
    (hjs : (j, s) ∈ Calls ts) (hw : Weight tt j s ≠ 0) :
    ∃ v, delayAt b.dv j s = .ok v ∧ dmax ≠ 0 ∧ v ∈ b.prob.vars := by
  have P := parts hb
  have hobj := P.hobj
  unfold objective at hobj
  obtain ⟨l, hl, hobj⟩ := bind_ok hobj
  obtain ⟨v, hv, h0, hin⟩ := objectiveTerms_ok hl hjs hw
  refine ⟨v, hv, h0, mem_vars.2 (.inl ?_)⟩
  cases hobj' : b.prob.objective with
  | mk terms const =>
  rw [hobj'] at hobj
  rw [← Except.ok.inj hobj]
  have key : ∀ (l : List LinExpr) (e : LinExpr), (OccursIn v e ∨ ∃ x ∈ l, OccursIn v x) →
      OccursIn v (l.foldl LinExpr.add e) := by
    intro l
    induction l with
    | nil => intro e h; simpa using h
    | cons x l ih =>
      intro e h
      rw [List.foldl_cons]
      apply ih
      rcases h with h | ⟨z, hz, h⟩
      · exact .inl (occursIn_add.2 (.inl h))
      · rcases List.mem_cons.1 hz with rfl | hz
        · exact .inl (occursIn_add.2 (.inr h))
        · exact .inr ⟨z, hz, h⟩
  refine key l _ (.inr ⟨_, hin, ?_⟩)
  rw [occursIn_smul, occursIn_smul, occursIn_var]
  exact ⟨by simp [h0], hw, rfl⟩

/-! ## C18 -/

/-- the full claim of C18: the impacts of all trains and stations add up to the objective -/
def ImpactsAddUp (ts : TrainSets) (tt : Timetable) (dmax : ℚ) (p : Problem) (sol : LpVar → ℚ) :
    Prop :=
  ∃ l, mapPy (fun c => impactToObjective p tt sol c.1 c.2 dmax) (Calls ts) = .ok l ∧
    l.sum = p.objective.eval sol

/-- **C18, partial.** Full claim: `ImpactsAddUp` for every built problem. Missing: the names must be
clean, because the code looks the variables up under names that PuLP may have changed, and `d_max`
must not be 0. -/
theorem C18_impacts_partial (hb : buildProblem ts tt dmax cat = .ok b) (hc : CleanNames ts)
    (h0 : dmax ≠ 0) (sol : LpVar → ℚ) :
    ImpactsAddUp ts tt dmax b.prob sol ∧
    ∀ c ∈ Calls ts, ∀ v, delayAt b.dv c.1 c.2 = .ok v →
      impactToObjective b.prob tt sol c.1 c.2 dmax = .ok (Weight tt c.1 c.2 * sol v / dmax) := by
  obtain ⟨d, hd⟩ := delays_exist b.dv sol
  have key : ∀ c ∈ Calls ts, impactToObjective b.prob tt sol c.1 c.2 dmax =
      .ok (Weight tt c.1 c.2 * d c.1 c.2 / dmax) := by
    intro c hcm
    unfold impactToObjective
    by_cases hv : ∃ v, delayAt b.dv c.1 c.2 = .ok v ∧ v ∈ b.prob.vars
    · obtain ⟨v, hv, hin⟩ := hv
      rw [find_delay hb hc hcm hv hin]
      simp only [h0, if_false, penaltyWeights_eq, (hd _ _).1 v hv]
      congr 1; ring
    · rw [find_none hb hc hcm fun v h1 h2 => hv ⟨v, h1, h2⟩]
      have : Weight tt c.1 c.2 = 0 := by
        by_contra hw
        obtain ⟨v, h1, _, h2⟩ := weighted_occurs hb hcm hw
        exact hv ⟨v, h1, h2⟩
      simp [this]
  refine ⟨⟨_, mapPy_of key, ?_⟩, fun c hcm v hv => by rw [key c hcm, (hd _ _).1 v hv]⟩
  rw [(C17_objective hb hd).1]
  unfold TotalDelay
  generalize Calls ts = l
  induction l with
  | nil => simp
  | cons c l ih => simp only [List.map_cons, List.sum_cons, ih, add_div]

/-- **C18 is false in general**: with a space in the name of a station the weighted delay there is
not found; its impact is reported as 0. -/
theorem C18_impacts_false : ∃ ts tt dmax cat b σ, buildProblem ts tt dmax cat = .ok b ∧
    Feasible b σ ∧ dmax ≠ 0 ∧ ¬ ImpactsAddUp ts tt dmax b.prob σ := by
  obtain ⟨b, hb, hf⟩ := exampleSpace_feasible
  refine ⟨exampleSpace, exampleSpaceTt, 10, .integer, b, exampleSpaceσ, hb, hf, by norm_num, ?_⟩
  rintro ⟨l, hl, hs⟩
  have h1 : (match buildProblem exampleSpace exampleSpaceTt 10 .integer with
      | .ok b => decide (b.prob.objective.eval exampleSpaceσ = 1 / 2) &&
          (match mapPy (fun c => impactToObjective b.prob exampleSpaceTt exampleSpaceσ c.1 c.2 10)
              (Calls exampleSpace) with
            | .ok l => decide (l.sum = 0)
            | .error _ => false)
      | .error _ => false) = true := by decide +kernel
  rw [hb] at h1
  simp only [hl, hs, Bool.and_eq_true, decide_eq_true_eq] at h1
  rw [h1.1] at h1
  norm_num at h1

theorem Small.cleanNames : CleanNames Small.ts := ⟨by decide +kernel, by decide +kernel, by decide +kernel⟩

/-- the hypotheses of C18 are met; the impacts of the small example add up to 12/10 -/
example : ∃ b, buildProblem Small.ts Small.tt 10 .integer = .ok b ∧ CleanNames Small.ts ∧
    (10 : ℚ) ≠ 0 := by
  obtain ⟨b, hb, _⟩ := Small.feasible
  exact ⟨b, hb, Small.cleanNames, by norm_num⟩

/-! ## C19 -/

/-- the full claim of C19: the reported time is the time of departure in the solution -/
def ReportsDepartures (ts : TrainSets) (tt : Timetable) (b : Built) (sol : LpVar → ℚ) : Prop :=
  ∀ j s t, Departs ts tt b.dv sol j s t → ∃ d e,
    delayAndActualTime ts tt b.prob sol j s = .ok (d, t, e) ∧ t = d + e

/-- **C19, partial.** Full claim: `ReportsDepartures`. Missing: clean names, and the delay variable
must occur in the problem (see `C19_occurs`). -/
theorem C19_reported_partial (hb : buildProblem ts tt dmax cat = .ok b) (hc : CleanNames ts)
    {j s : Val} :
    (∀ e v, earliestDepTime ts.paths tt j s = .ok e → delayAt b.dv j s = .ok v → v ∈ b.prob.vars →
      delayAndActualTime ts tt b.prob sol j s = .ok (sol v, sol v + e, e)) ∧
    ((j, s) ∈ Calls ts → ¬ HasDelay ts j s →
      delayAndActualTime ts tt b.prob sol j s = .ok (0, 0, 0)) := by
  have P := parts hb
  constructor
  · intro e v he hv hin
    have h := hv
    rw [delayAt_ok, delayVariables_find P.hdv] at h
    unfold delayAndActualTime
    rw [find_delay hb hc (mem_calls.2 ⟨h.1.1, h.1.2.1⟩) hv hin]
    simp only
    rw [he]; rfl
  · intro hjs hno
    unfold delayAndActualTime
    rw [find_none hb hc hjs]
    intro v hv
    rw [delayAt_ok, delayVariables_find P.hdv] at hv
    exact absurd hv.1 hno

/-- what a minimal-stay constraint looks like -/
theorem stay_emits {j s p : Val} {dv : DelayVars} {cs : List Named}
    (h : minimalStayConstrain j s tt dv ts = .ok cs)
    (hprev : PrevOf ts j s p) (hp : p ≠ .none) {v : LpVar} (hv : delayAt dv j s = .ok v) :
    ∃ vp, delayAt dv j p = .ok vp ∧ ∃ c ∈ cs, OccursIn v c.2.expr ∧ OccursIn vp c.2.expr := by
  unfold minimalStayConstrain at h
  obtain ⟨path, hpath, h⟩ := bind_ok h
  obtain ⟨sp, hsp, h⟩ := bind_ok h
  have : sp = p := prevOf_unique (prevOf_iff.2 ⟨path, hpath, hsp⟩) hprev
  subst this
  simp only [ne_eq, hp, not_false_eq_true, if_true] at h
  obtain ⟨dj, hdj, h⟩ := bind_ok h
  unfold delayAt at hv
  rw [hdj] at hv
  have hv' : Dict.get? dj s = some v := Dict.at!_ok.1 hv
  simp only [hv'] at h
  obtain ⟨lhs, _, h⟩ := bind_ok h
  obtain ⟨dp, hdp, h⟩ := bind_ok h
  obtain ⟨ep, hep, h⟩ := bind_ok h
  obtain ⟨w, hw, h⟩ := bind_ok h
  obtain ⟨st, hst, h⟩ := bind_ok h
  cases h
  refine ⟨dp, hdp, _, List.mem_singleton.2 rfl, ?_, ?_⟩
  · simp [Constraint.mkGE, occursIn_sub, occursIn_add, occursIn_var]
  · simp [Constraint.mkGE, occursIn_sub, occursIn_add, occursIn_var]

/-- the delays of a train at consecutive stations of its path are variables of the problem -/
theorem stay_occurs (hb : buildProblem ts tt dmax cat = .ok b) {j s p : Val}
    (hprev : PrevOf ts j s p) (hp : p ≠ .none) {v : LpVar} (hv : delayAt b.dv j s = .ok v) :
    v ∈ b.prob.vars ∧ ∃ vp, delayAt b.dv j p = .ok vp ∧ vp ∈ b.prob.vars := by
  have P := parts hb
  obtain ⟨c1, c2, c3, c4, c5, c6, _, h2, _, _, _, _, he, _⟩ := built_constraints hb
  obtain ⟨path, hpath, hpo⟩ := hprev
  have hv' := hv
  rw [delayAt_ok, delayVariables_find P.hdv] at hv'
  have h2' := h2
  unfold minimalStay at h2'
  obtain ⟨a, ha, hsub⟩ := (collect_ok h2').1 j hv'.1.1
  rw [Dict.at!_ok.2 hpath] at ha
  simp only [bind, Except.bind] at ha
  obtain ⟨a', ha', hsub'⟩ := (collect_ok ha).1 s (prevOn_mem hpo)
  obtain ⟨vp, hvp, c, hc, o1, o2⟩ := stay_emits ha' ⟨path, hpath, hpo⟩ hp hv
  have hin : (sanitize c.1, c.2) ∈ b.prob.constraints := by
    rw [he]
    refine List.mem_map.2 ⟨c, ?_, rfl⟩
    have := hsub _ (hsub' _ hc)
    simp [this]
  exact ⟨mem_vars.2 (.inr ⟨_, hin, o1⟩), vp, hvp, mem_vars.2 (.inr ⟨_, hin, o2⟩)⟩

/-- the time of departure from `s` matters to the problem: it has a weight, or there is a previous
station, or a next one where the train has a delay -/
def Matters (ts : TrainSets) (tt : Timetable) (j s : Val) : Prop :=
  Weight tt j s ≠ 0 ∨ (∃ p, PrevOf ts j s p ∧ p ≠ .none) ∨
    ∃ s', PrevOf ts j s' s ∧ s ≠ .none ∧ HasDelay ts j s'

/-- **C19, partial**: where the departure matters to the problem, the reported time is the time of
departure in the solution. -/
theorem C19_departures_partial (hb : buildProblem ts tt dmax cat = .ok b) (hc : CleanNames ts)
    {j s : Val} (hm : Matters ts tt j s) {t : ℚ} (ht : Departs ts tt b.dv sol j s t) : ∃ d e,
      delayAndActualTime ts tt b.prob sol j s = .ok (d, t, e) ∧ t = d + e := by
  have P := parts hb
  obtain ⟨e, v, he, hv, rfl⟩ := ht
  refine ⟨sol v, e, ?_, add_comm _ _⟩
  rw [add_comm]
  refine (C19_reported_partial hb hc).1 e v he hv ?_
  rcases hm with hw | ⟨p, hp, hpn⟩ | ⟨s', hp, hsn, hd⟩
  · have hv' := hv
    rw [delayAt_ok, delayVariables_find P.hdv] at hv'
    obtain ⟨v', h1, _, h2⟩ := weighted_occurs hb (mem_calls.2 ⟨hv'.1.1, hv'.1.2.1⟩) hw
    rw [hv] at h1
    rw [Except.ok.inj h1]; exact h2
  · exact (stay_occurs hb hp hpn hv).1
  · have hv' : delayAt b.dv j s' = .ok (dVar j s' dmax cat) := by
      rw [delayAt_ok, delayVariables_find P.hdv]
      exact ⟨hd, rfl⟩
    obtain ⟨_, v', h1, h2⟩ := stay_occurs hb hp hsn hv'
    rw [hv] at h1
    rw [Except.ok.inj h1]; exact h2

/-- one train at one station, no weights -/
def exampleAlone : TrainSets where
  skipStation := .none
  paths := [(.int 1, [.str "A"])]
  J := [.int 1]
  Jd := []
  Josingle := []
  Jround := []
  Jtrack := []
  Jswitch := []
  addSwithes := .none

def exampleAloneTt : Timetable where
  tauPass := []
  tauHeadway := []
  tauStop := []
  tauPrep := []
  tauRes := some 1
  schedule := .none
  initialConditions := [("1_A", 7)]
  penaltyWeights := []

/-- **C19 is false in general**: (1) a delay that occurs neither in the objective nor in a
constraint is reported, together with the time of departure, as 0, although the train leaves at 12;
(2) so is a delay whose name PuLP has changed (here the train leaves at 16). -/
theorem C19_reported_false :
    (∃ ts tt dmax cat b σ, buildProblem ts tt dmax cat = .ok b ∧ Feasible b σ ∧ CleanNames ts ∧
      Departs ts tt b.dv σ (.int 1) (.str "A") 12 ∧ ¬ ReportsDepartures ts tt b σ) ∧
    (∃ ts tt dmax cat b σ s, buildProblem ts tt dmax cat = .ok b ∧ Feasible b σ ∧
      Matters ts tt (.int 1) s ∧ Departs ts tt b.dv σ (.int 1) s 16 ∧
      ¬ ReportsDepartures ts tt b σ) := by
  constructor
  · obtain ⟨b, hb, hf⟩ : ∃ b, buildProblem exampleAlone exampleAloneTt 10 .integer = .ok b ∧
        Feasible b exampleSpaceσ :=
      feasible_of_check (by decide +kernel)
        (fun v j s hv => by
          unfold exampleSpaceσ; rw [hv]; exact ⟨by norm_num, by norm_num, 5, by norm_num⟩)
        (fun v a b c d hv => by unfold exampleSpaceσ; rw [hv]; exact .inl rfl)
    have hd : Departs exampleAlone exampleAloneTt b.dv exampleSpaceσ (.int 1) (.str "A") 12 :=
      departs_of_check hb (by decide +kernel)
    refine ⟨exampleAlone, exampleAloneTt, 10, .integer, b, exampleSpaceσ, hb, hf,
      ⟨by decide +kernel, by decide +kernel, by decide +kernel⟩, hd, fun h => ?_⟩
    obtain ⟨d, e, h1, _⟩ := h _ _ _ hd
    have h2 : (match buildProblem exampleAlone exampleAloneTt 10 .integer with
        | .ok b => decide (b.prob.vars = [])
        | .error _ => false) = true := by decide +kernel
    rw [hb] at h2
    simp only [decide_eq_true_eq] at h2
    unfold delayAndActualTime at h1
    rw [h2] at h1
    simp at h1
  · obtain ⟨b, hb, hf⟩ := exampleSpace_feasible
    have hd : Departs exampleSpace exampleSpaceTt b.dv exampleSpaceσ (.int 1)
        (.str "Nowy Bytom") 16 := departs_of_check hb (by decide +kernel)
    refine ⟨exampleSpace, exampleSpaceTt, 10, .integer, b, exampleSpaceσ, .str "Nowy Bytom", hb, hf,
      .inl (by decide +kernel), hd, fun h => ?_⟩
    obtain ⟨d, e, h1, _⟩ := h _ _ _ hd
    have h2 : (match buildProblem exampleSpace exampleSpaceTt 10 .integer with
        | .ok b => decide ((b.prob.vars.find? fun v =>
            v.name = "Delays_" ++ key2 (.int 1) (.str "Nowy Bytom")) = .none)
        | .error _ => false) = true := by decide +kernel
    rw [hb] at h2
    simp only [decide_eq_true_eq] at h2
    unfold delayAndActualTime at h1
    rw [h2] at h1
    simp at h1

/-- train 1 of the small example at `A` (next station `B`) -/
example : ∃ b, buildProblem Small.ts Small.tt 10 .integer = .ok b ∧ CleanNames Small.ts ∧
    Matters Small.ts Small.tt (.int 1) (.str "A") ∧
    Departs Small.ts Small.tt b.dv Small.σ (.int 1) (.str "A") 4 := by
  obtain ⟨b, hb, _⟩ := Small.feasible
  refine ⟨b, hb, Small.cleanNames, ?_, departs_of_check hb (by decide +kernel)⟩
  refine .inr (.inr ⟨.str "B", ⟨[.str "A", .str "B", .str "C"], by decide +kernel,
    .inl ⟨[], [.str "C"], by simp, by simp⟩⟩, by decide, ?_⟩)
  have h := Small.feasible
  obtain ⟨b', hb', _⟩ := h
  have h2 : (match buildProblem Small.ts Small.tt 10 .integer with
        | .ok b => decide ((find2 b.dv (.int 1) (.str "B")).isSome)
        | .error _ => false) = true := by decide +kernel
  rw [hb'] at h2
  simp only [decide_eq_true_eq] at h2
  obtain ⟨v, hv⟩ := Option.isSome_iff_exists.1 h2
  exact ((delayVariables_find (parts hb').hdv).1 hv).1

end Verif
