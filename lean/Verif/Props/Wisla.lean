import Verif.Model.Wisla
import Verif.Model.Print
import Verif.Model.Results
import Verif.Props.Rules
import Verif.Props.Objective
import Verif.Examples.Check

/-!
# C74: the problem of `wisla_problems.py`
-/

namespace Verif.Wisla

/-- earliest departure as computed by the program -/
def earliest (j s : Val) : ℚ :=
  match earliestDepTime ts.paths tt j s with
  | .ok e => e
  | .error _ => 0

/-- the assignment belonging to given delays: the train that leaves first goes first -/
def assign (d : Val → Val → ℚ) (v : LpVar) : ℚ :=
  match v.vid with
  | .delay j s => d j s
  | .order a b c s =>
    if c = oneStation then (if earliest a s + d a s < earliest b s + d b s then 1 else 0)
    else (if earliest a c + d a c < earliest b s + d b s then 1 else 0)

/-- Ic1 waits six minutes at station 5 -/
def best (j s : Val) : ℚ := if (j, s) = (ic1, s5) then 6 else 0

/-- the same, and Ic2 leaves station 10 five minutes late, in the same
minute as Ks4 -/
def together (j s : Val) : ℚ :=
  if (j, s) = (ic1, s5) then 6 else if j = ic2 then (if s = s10 then 5 else if s = s5 then 8 else 10) else 0


theorem namesOK : NamesOK ts := by
  refine ⟨⟨?_, ?_, ?_, ?_, ?_, ?_⟩, ?_⟩ <;> decide +kernel

theorem namesOK_meant : NamesOK tsMeant := by
  refine ⟨⟨?_, ?_, ?_, ?_, ?_, ?_⟩, ?_⟩ <;> decide +kernel

theorem assign_domain {d : Val → Val → ℚ} (hd : ∀ j s, 0 ≤ d j s ∧ d j s ≤ 10 ∧ ∃ n : ℤ, d j s = n) :
    (∀ v j s, v.vid = .delay j s → 0 ≤ assign d v ∧ assign d v ≤ 10 ∧ ∃ n : ℤ, assign d v = n) ∧
    (∀ v a b c e, v.vid = .order a b c e → assign d v = 0 ∨ assign d v = 1) := by
  constructor
  · intro v j s hv
    simpa [assign, hv] using hd j s
  · intro v a b c e hv
    simp only [assign, hv]
    split_ifs <;> simp

theorem best_domain (j s : Val) : 0 ≤ best j s ∧ best j s ≤ 10 ∧ ∃ n : ℤ, best j s = n := by
  unfold best
  split_ifs
  · exact ⟨by norm_num, by norm_num, 6, by norm_num⟩
  · exact ⟨by norm_num, by norm_num, 0, by norm_num⟩

theorem together_domain (j s : Val) :
    0 ≤ together j s ∧ together j s ≤ 10 ∧ ∃ n : ℤ, together j s = n := by
  unfold together
  split_ifs
  · exact ⟨by norm_num, by norm_num, 6, by norm_num⟩
  · exact ⟨by norm_num, by norm_num, 5, by norm_num⟩
  · exact ⟨by norm_num, by norm_num, 8, by norm_num⟩
  · exact ⟨by norm_num, by norm_num, 10, by norm_num⟩
  · exact ⟨by norm_num, by norm_num, 0, by norm_num⟩

/-- the problem with other groups of `"Jd"` and other headways -/
def tsWith (Jd : Dict Val (Dict Val (List (List Val)))) : TrainSets := { ts with Jd := Jd }
def ttWith (h : Dict String ℚ) : Timetable := { tt with tauHeadway := h }

section lower

variable {Jd : Dict Val (Dict Val (List (List Val)))} {hw : Dict String ℚ} {b : Built}
  {σ : LpVar → ℚ}

theorem edt_with (S : Dict Val (List Val)) (j : Val) (n : ℕ) :
    ∀ s, edtFuel S (ttWith hw) j n s = edtFuel S tt j n s := by
  induction n with
  | zero => intro s; rfl
  | succ n ih => intro s; unfold edtFuel; simp only [ih]; rfl

theorem earliest_with (j s : Val) :
    earliestDepTime (tsWith Jd).paths (ttWith hw) j s = earliestDepTime ts.paths tt j s :=
  edt_with _ _ _ _

theorem totalDelay_eq (d : Val → Val → ℚ) : TotalDelay (tsWith Jd) (ttWith hw) d =
    9/10 * d ks1 s5 + 9/10 * d ks3 s5 + 9/10 * d ic1 s5 + d ks2 s5 + d ks2 s3 + 3/2 * d ic2 s3 := by
  have h : (Calls ts).map (fun c => (c, Weight tt c.1 c.2)) =
      [((ks1, s1), 0), ((ks1, s3), 0), ((ks1, s5), 9/10), ((ks1, s10), 0),
       ((ks3, s1), 0), ((ks3, s3), 0), ((ks3, s5), 9/10), ((ks3, s10), 0),
       ((ic1, s1), 0), ((ic1, s3), 0), ((ic1, s5), 9/10), ((ic1, s10), 0),
       ((ks2, s10), 0), ((ks2, s5), 1), ((ks2, s3), 1), ((ks2, s1), 0),
       ((ks4, s10), 0), ((ks4, s5), 0), ((ks4, s3), 0), ((ks4, s1), 0),
       ((ic2, s10), 0), ((ic2, s5), 0), ((ic2, s3), 3/2), ((ic2, s1), 0)] := by decide +kernel
  have h2 : TotalDelay (tsWith Jd) (ttWith hw) d =
      (((Calls ts).map (fun c => (c, Weight tt c.1 c.2))).map
        fun x => x.2 * d x.1.1 x.1.2).sum := by
    rw [List.map_map]; rfl
  rw [h2, h]
  simp only [List.map_cons, List.map_nil, List.sum_cons, List.sum_nil]
  ring

/-- a departure is the earliest one plus the delay -/
theorem departs_delay {d : Val → Val → ℚ} (hd : Delays b.dv σ d) {j s : Val} {t : ℚ}
    (h : Departs (tsWith Jd) (ttWith hw) b.dv σ j s t) : t = earliest j s + d j s := by
  obtain ⟨e, v, he, hv, rfl⟩ := h
  rw [earliest_with] at he
  rw [((hd j s).1 v hv), earliest, he]

theorem departs_of (hb : buildProblem (tsWith Jd) (ttWith hw) 10 .integer = .ok b)
    {d : Val → Val → ℚ} (hd : Delays b.dv σ d) {j s : Val}
    (h : (match delayVariables ts 10 .integer with
      | .ok dv => (match delayAt dv j s with | .ok _ => true | .error _ => false)
      | .error _ => false) = true)
    (h' : (match earliestDepTime ts.paths tt j s with | .ok _ => true | .error _ => false) = true) :
    Departs (tsWith Jd) (ttWith hw) b.dv σ j s (earliest j s + d j s) := by
  have h1 : delayVariables ts 10 .integer = .ok b.dv := (parts hb).hdv
  rw [h1] at h
  simp only at h
  split at h
  · rename_i v hv
    split at h'
    · rename_i e he
      refine ⟨e, v, (earliest_with _ _).trans he, hv, ?_⟩
      rw [(hd j s).1 v hv, earliest, he]
    · cases h'
  · cases h

/-- the delays of an assignment -/
def delaysOf (dv : DelayVars) (σ : LpVar → ℚ) (j s : Val) : ℚ :=
  match delayAt dv j s with
  | .ok v => σ v
  | .error _ => 0

theorem delaysOf_delays (dv : DelayVars) (σ : LpVar → ℚ) : Delays dv σ (delaysOf dv σ) := by
  intro j s
  unfold delaysOf
  constructor
  · intro v hv
    simp only [hv]
  · intro hno
    cases hv : delayAt dv j s with
    | ok v => exact absurd hv (hno v)
    | error e => rfl

/-- **lower bound**: no feasible assignment has an objective below 27/50 -/
theorem lower (hb : buildProblem (tsWith Jd) (ttWith hw) 10 .integer = .ok b)
    (hn : NamesOK (tsWith Jd)) (hf : Feasible b σ) :
    27/50 ≤ b.prob.objective.eval σ ∧
    (b.prob.objective.eval σ = 27/50 → ∀ d, Delays b.dv σ d →
      d ic1 s5 = 6 ∧ d ks1 s5 = 0 ∧ d ks3 s5 = 0 ∧ d ks2 s5 = 0 ∧ d ks2 s3 = 0 ∧ d ic2 s3 = 0) := by
  have main : ∀ d, Delays b.dv σ d → 27/50 ≤ b.prob.objective.eval σ ∧
      (b.prob.objective.eval σ = 27/50 →
      d ic1 s5 = 6 ∧ d ks1 s5 = 0 ∧ d ks3 s5 = 0 ∧ d ks2 s5 = 0 ∧ d ks2 s3 = 0 ∧ d ic2 s3 = 0) := by
    intro d hd
    have h0 : ∀ j s, 0 ≤ d j s := by
      intro j s
      by_cases h : ∃ v, delayAt b.dv j s = .ok v
      · obtain ⟨v, hv⟩ := h
        rw [(hd j s).1 v hv]
        exact (delay_bounds (parts hb).hdv hf.adm.delays hv).1
      · rw [(hd j s).2 fun v hv => h ⟨v, hv⟩]
    rw [(C17_objective hb hd).1, totalDelay_eq]
    have hic := departs_of hb hd (j := ic1) (s := s5) (by decide +kernel) (by decide +kernel)
    have hks := departs_of hb hd (j := ks2) (s := s10) (by decide +kernel) (by decide +kernel)
    have hks5 := departs_of hb hd (j := ks2) (s := s5) (by decide +kernel) (by decide +kernel)
    have hks3 := departs_of hb hd (j := ks2) (s := s3) (by decide +kernel) (by decide +kernel)
    obtain ⟨w, w', h1, h2, h3⟩ := C02_singleLine hb hn hf (s := s5) (sp := s10) (j := ic1)
      (jp := ks2) (List.mem_cons_of_mem _ (List.mem_cons_of_mem _ List.mem_cons_self))
      (by decide +kernel) (by decide +kernel) (by
        rintro ⟨_, e, he, h⟩
        have he : e ∈ ts.Jround := he
        simp only [ts, List.mem_singleton] at he
        subst he
        revert h; decide +kernel)
    have e1 : earliest ic1 s5 = 40 := by decide +kernel
    have e2 : earliest ks2 s10 = 40 := by decide +kernel
    have e3 : earliest ks2 s5 = 47 := by decide +kernel
    have e4 : earliest ks2 s3 = 54 := by decide +kernel
    have hw5 : w = 5 := by
      have : Pass tt ic1 s5 s10 5 := by unfold Pass; decide +kernel
      exact Option.some.inj (h1.symm.trans this)
    have hw6 : w' = 6 := by
      have : Pass tt ks2 s10 s5 6 := by unfold Pass; decide +kernel
      exact Option.some.inj (h2.symm.trans this)
    have step : ∀ p s : Val, ∀ c : ℚ, PrevOf ts ks2 s p → p ≠ .none →
        Departs (tsWith Jd) (ttWith hw) b.dv σ ks2 s (earliest ks2 s + d ks2 s) →
        Pass tt ks2 p s c → Stop tt ks2 s 1 →
        earliest ks2 p + d ks2 p + c + 1 ≤ earliest ks2 s + d ks2 s := by
      intro p s c hp hp0 hdep hc hs1
      obtain ⟨t, w, st, q1, q2, q3, q4⟩ := C03_step hb hf (show ks2 ∈ ts.J by decide +kernel)
        hp hp0 hdep
      have hwc : w = c := Option.some.inj (q2.symm.trans hc)
      have hst : st = 1 := Option.some.inj (q3.symm.trans hs1)
      rw [departs_delay hd q1, hwc, hst] at q4
      exact q4
    have s1' := step s10 s5 6 (prevOf_iff.2 ⟨_, rfl, by decide +kernel⟩) (by decide) hks5
      (by unfold Pass; decide +kernel) (by unfold Stop; decide +kernel)
    have s2' := step s5 s3 6 (prevOf_iff.2 ⟨_, rfl, by decide +kernel⟩) (by decide) hks3
      (by unfold Pass; decide +kernel) (by unfold Stop; decide +kernel)
    have h4 := h3 _ _ hic hks
    rw [e1, e2, hw5, hw6] at h4
    rw [e2, e3] at s1'
    rw [e3, e4] at s2'
    have p0 := h0 ks2 s10
    have p1 := h0 ks1 s5
    have p2 := h0 ks3 s5
    have p3 := h0 ic1 s5
    have p4 := h0 ks2 s5
    have p5 := h0 ks2 s3
    have p6 := h0 ic2 s3
    rcases h4 with h4 | h4
    · constructor
      · linarith
      · intro; exfalso; linarith
    · constructor
      · linarith
      · intro; refine ⟨?_, ?_, ?_, ?_, ?_, ?_⟩ <;> linarith
  refine ⟨?_, fun h d hd => (main d hd).2 h⟩
  exact (main _ (delaysOf_delays b.dv σ)).1

end lower

/-- The least objective of the problem of the script is 0.54, and an optimal plan lets Ic1 wait for
Ks2 at station 5 (departure at minute 46 instead of 40); all other departures with a weight are the
earliest possible ones. -/
def Optimum (ts : TrainSets) (tt : Timetable) : Prop :=
  ∃ b, buildProblem ts tt 10 .integer = .ok b ∧
    (∃ σ, Feasible b σ ∧ b.prob.objective.eval σ = 27/50) ∧
    ∀ σ, Feasible b σ → 27/50 ≤ b.prob.objective.eval σ ∧
      (b.prob.objective.eval σ = 27/50 →
        Departs ts tt b.dv σ ic1 s5 46 ∧ Departs ts tt b.dv σ ks2 s5 47 ∧
        Departs ts tt b.dv σ ks2 s3 54 ∧ Departs ts tt b.dv σ ks1 s5 12 ∧
        Departs ts tt b.dv σ ks3 s5 72 ∧ Departs ts tt b.dv σ ic2 s3 106)

theorem optimum_of {Jd : Dict Val (Dict Val (List (List Val)))} {hw : Dict String ℚ}
    (hc : checkAll (tsWith Jd) (ttWith hw) 10 .integer (assign best) = true)
    (hn : NamesOK (tsWith Jd)) : Optimum (tsWith Jd) (ttWith hw) := by
  have hdom := assign_domain best_domain
  obtain ⟨b, hb, hf⟩ := feasible_of_check hc hdom.1 hdom.2
  refine ⟨b, hb, ⟨_, hf, ?_⟩, fun σ hσ => ⟨(lower hb hn hσ).1, fun h => ?_⟩⟩
  · have hd := delaysOf_delays b.dv (assign best)
    have hv : ∀ j s, (match delayVariables ts 10 .integer with
        | .ok dv => (match delayAt dv j s with
          | .ok v => decide (v.vid = .delay j s)
          | .error _ => false)
        | .error _ => false) = true → delaysOf b.dv (assign best) j s = best j s := by
      intro j s h
      have h1 : delayVariables ts 10 .integer = .ok b.dv := (parts hb).hdv
      rw [h1] at h
      unfold delaysOf
      cases hv : delayAt b.dv j s with
      | ok v =>
        have h : v.vid = .delay j s := by simpa [hv] using h
        simp only [assign, h]
      | error e => simp [hv] at h
    rw [(C17_objective hb hd).1, totalDelay_eq, hv ks1 s5 (by decide +kernel),
      hv ks3 s5 (by decide +kernel), hv ic1 s5 (by decide +kernel), hv ks2 s5 (by decide +kernel),
      hv ks2 s3 (by decide +kernel), hv ic2 s3 (by decide +kernel)]
    decide +kernel
  · have hd := delaysOf_delays b.dv σ
    obtain ⟨h1, h2, h3, h4, h5, h6⟩ := (lower hb hn hσ).2 h _ hd
    have dep : ∀ j s t x, delaysOf b.dv σ j s = x → earliest j s + x = t →
        (match delayVariables ts 10 .integer with
          | .ok dv => (match delayAt dv j s with | .ok _ => true | .error _ => false)
          | .error _ => false) = true →
        (match earliestDepTime ts.paths tt j s with | .ok _ => true | .error _ => false) = true →
        Departs (tsWith Jd) (ttWith hw) b.dv σ j s t := by
      intro j s t x hx ht ha he
      rw [← ht, ← hx]
      exact departs_of hb hd ha he
    exact ⟨dep _ _ _ _ h1 (by decide +kernel) (by decide +kernel) (by decide +kernel),
      dep _ _ _ _ h4 (by decide +kernel) (by decide +kernel) (by decide +kernel),
      dep _ _ _ _ h5 (by decide +kernel) (by decide +kernel) (by decide +kernel),
      dep _ _ _ _ h2 (by decide +kernel) (by decide +kernel) (by decide +kernel),
      dep _ _ _ _ h3 (by decide +kernel) (by decide +kernel) (by decide +kernel),
      dep _ _ _ _ h6 (by decide +kernel) (by decide +kernel) (by decide +kernel)⟩

/-- **C74**, the optimum of the problem of the script -/
theorem C74_optimum : Optimum ts tt :=
  optimum_of (Jd := ts.Jd) (hw := tt.tauHeadway) (by decide +kernel) namesOK

/-- **C74**, refutation: the headway of two minutes given for Ks4 and Ic2 from station 10 to station 5
is not kept. A feasible assignment lets both leave station 10 in the same minute. -/
theorem C74_headway_false : ∃ b σ, buildProblem ts tt 10 .integer = .ok b ∧ Feasible b σ ∧
    Headway tt ks4 ic2 s10 s5 2 ∧ Headway tt ic2 ks4 s10 s5 2 ∧
    Departs ts tt b.dv σ ks4 s10 100 ∧ Departs ts tt b.dv σ ic2 s10 100 := by
  have hdom := assign_domain together_domain
  obtain ⟨b, hb, hf⟩ := feasible_of_check (ts := ts) (tt := tt) (dmax := 10) (cat := .integer)
    (σ := assign together) (by decide +kernel) hdom.1 hdom.2
  exact ⟨b, _, hb, hf, by unfold Headway; decide +kernel, by unfold Headway; decide +kernel,
    departs_of_check hb (by decide +kernel), departs_of_check hb (by decide +kernel)⟩

/-- **C74**, headways where the script imposes them: at all other stations that trains leave. Missing:
station 10. -/
theorem C74_headway_partial : ∀ b σ, buildProblem ts tt 10 .integer = .ok b → Feasible b σ →
    ∀ x ∈ [(s1, s3, [ks1, ks3, ic1]), (s3, s5, [ks1, ks3, ic1]), (s5, s10, [ks1, ks3, ic1]),
      (s5, s3, [ks2, ks4, ic2]), (s3, s1, [ks2, ks4, ic2])],
    ∀ j ∈ x.2.2, ∀ jp ∈ x.2.2, j ≠ jp → Headway tt j jp x.1 x.2.1 2 ∧ ∀ t tp,
      Departs ts tt b.dv σ j x.1 t → Departs ts tt b.dv σ jp x.1 tp → t + 2 ≤ tp ∨ tp + 2 ≤ t := by
  intro b σ hb hf x hx j hj jp hjp hne
  have key : ∀ x ∈ [(s1, s3, [ks1, ks3, ic1]), (s3, s5, [ks1, ks3, ic1]), (s5, s10, [ks1, ks3, ic1]),
      (s5, s3, [ks2, ks4, ic2]), (s3, s1, [ks2, ks4, ic2])],
      (∃ e ∈ ts.Jd, e.1 = x.1 ∧ ∃ e2 ∈ e.2, e2.1 = x.2.1 ∧ x.2.2 ∈ e2.2) ∧
      ∀ j ∈ x.2.2, ∀ jp ∈ x.2.2, j ≠ jp →
        Dict.get? tt.tauHeadway (key4 j jp x.1 x.2.1) = some 2 := by decide +kernel
  obtain ⟨⟨e, he, h1, e2, he2, h2, hg⟩, hk⟩ := key x hx
  obtain ⟨h, h', q1, q2, q3⟩ := C01_headway hb namesOK hf he he2 hg hj hjp hne
  rw [h1, h2] at q1 q2
  have e1 : h = 2 := Option.some.inj (q1.symm.trans (hk j hj jp hjp hne))
  have e2 : h' = 2 := Option.some.inj (q2.symm.trans (hk jp hjp j hj (Ne.symm hne)))
  rw [h1, e1, e2] at q3
  exact ⟨hk j hj jp hjp hne, q3⟩

/-- **C74**, the repaired brace alone does not help: a headway is missing. -/
theorem C74_meant_keyError : ∀ cat, buildProblem tsMeant tt 10 cat = .error .keyError := by
  have h : ∀ cat, (match buildProblem tsMeant tt 10 cat with
      | .ok _ => false
      | .error e => decide (e = .keyError)) = true := by
    intro cat; cases cat <;> decide +kernel
  intro cat
  have := h cat
  split at this
  · cases this
  · rename_i e he
    rw [he, of_decide_eq_true this]

/-- **C74**, with brace and key repaired the optimum is the same, and the trains from station 10 to
station 5 leave two minutes apart in every feasible assignment. -/
theorem C74_meant : Optimum tsMeant ttMeant ∧
    ∀ b σ, buildProblem tsMeant ttMeant 10 .integer = .ok b → Feasible b σ →
      ∀ j ∈ [ks2, ks4, ic2], ∀ jp ∈ [ks2, ks4, ic2], j ≠ jp → ∀ t tp,
        Departs tsMeant ttMeant b.dv σ j s10 t → Departs tsMeant ttMeant b.dv σ jp s10 tp →
        t + 2 ≤ tp ∨ tp + 2 ≤ t := by
  refine ⟨optimum_of (Jd := tsMeant.Jd) (hw := ttMeant.tauHeadway) (by decide +kernel) namesOK_meant,
    fun b σ hb hf j hj jp hjp hne t tp ht htp => ?_⟩
  obtain ⟨h, h', h1, h2, h3⟩ := C01_headway hb namesOK_meant hf (e := (s10, [(s5, [[ks2, ks4, ic2]])]))
    (by decide +kernel) (e2 := (s5, [[ks2, ks4, ic2]])) List.mem_cons_self
    (g := [ks2, ks4, ic2]) List.mem_cons_self hj hjp hne
  have key : ∀ j ∈ [ks2, ks4, ic2], ∀ jp ∈ [ks2, ks4, ic2], j ≠ jp →
      Dict.get? ttMeant.tauHeadway (key4 j jp s10 s5) = some 2 := by decide +kernel
  have e1 : h = 2 := Option.some.inj (h1.symm.trans (key j hj jp hjp hne))
  have e2 : h' = 2 := Option.some.inj (h2.symm.trans (key jp hjp j hj (Ne.symm hne)))
  have := h3 t tp ht htp
  rwa [e1, e2] at this

/-! ## Recorded output -/

/-- `"sample"` of `/repo/solutions_quantum/wisla/sim_wisla_case1.pkl` -/
def sample : Sample :=
  [("Delays_Ic1_1", 7), ("Delays_Ic1_3", 3), ("Delays_Ic1_5", 6), ("Delays_Ic2_10", 3),
  ("Delays_Ic2_3", 7), ("Delays_Ic2_5", 7), ("Delays_Ks1_1", 3), ("Delays_Ks1_3", 3),
  ("Delays_Ks1_5", 0), ("Delays_Ks2_10", 3), ("Delays_Ks2_3", 3), ("Delays_Ks2_5", 0),
  ("Delays_Ks3_1", 3), ("Delays_Ks3_3", 6), ("Delays_Ks3_5", 6), ("Delays_Ks4_10", 7),
  ("Delays_Ks4_3", 10), ("Delays_Ks4_5", 10), ("y_Ks1_Ic1_one_station_1", 1),
  ("y_Ks1_Ic1_one_station_3", 1), ("y_Ks1_Ic1_one_station_5", 1),
  ("y_Ks1_Ks3_one_station_1", 1), ("y_Ks1_Ks3_one_station_3", 1),
  ("y_Ks1_Ks3_one_station_5", 1), ("y_Ks2_Ic2_one_station_3", 1),
  ("y_Ks2_Ic2_one_station_5", 1), ("y_Ks2_Ks4_one_station_3", 1),
  ("y_Ks2_Ks4_one_station_5", 1), ("y_Ks3_Ic1_one_station_1", 0),
  ("y_Ks3_Ic1_one_station_3", 0), ("y_Ks3_Ic1_one_station_5", 0),
  ("y_Ks4_Ic2_one_station_3", 0), ("y_Ks4_Ic2_one_station_5", 0), ("z_Ic1_Ks2_1_3", 1),
  ("z_Ic1_Ks2_3_5", 1), ("z_Ic1_Ks2_5_10", 0), ("z_Ic1_Ks4_1_3", 1), ("z_Ic1_Ks4_3_5", 1),
  ("z_Ic1_Ks4_5_10", 1), ("z_Ks1_Ic2_1_3", 1), ("z_Ks1_Ic2_3_5", 1), ("z_Ks1_Ic2_5_10", 1),
  ("z_Ks1_Ks2_1_3", 1), ("z_Ks1_Ks2_3_5", 1), ("z_Ks1_Ks2_5_10", 1), ("z_Ks1_Ks4_1_3", 1),
  ("z_Ks1_Ks4_3_5", 1), ("z_Ks1_Ks4_5_10", 1), ("z_Ks3_Ic2_1_3", 1), ("z_Ks3_Ic2_3_5", 1),
  ("z_Ks3_Ic2_5_10", 1), ("z_Ks3_Ks2_1_3", 0), ("z_Ks3_Ks2_3_5", 0), ("z_Ks3_Ks2_5_10", 0),
  ("z_Ks3_Ks4_1_3", 1), ("z_Ks3_Ks4_3_5", 1), ("z_Ks3_Ks4_5_10", 1)]

/-- `"feas_constraints"` of that file: its constraints and whether the sample keeps them -/
def recorded : Dict String Bool :=
  [("minimal_span_Ks1_Ks3_1_3", true), ("minimal_span_Ks1_Ic1_1_3", true),
  ("minimal_span_Ic1_Ks3_1_3", true), ("minimal_span_Ks2_Ks4_3_1", true),
  ("minimal_span_Ks2_Ic2_3_1", true), ("minimal_span_Ic2_Ks4_3_1", true),
  ("minimal_span_Ks4_Ic2_3_1", true), ("minimal_span_Ks1_Ks3_3_5", true),
  ("minimal_span_Ks1_Ic1_3_5", true), ("minimal_span_Ic1_Ks3_3_5", true),
  ("minimal_span_Ks2_Ks4_5_3", true), ("minimal_span_Ks2_Ic2_5_3", true),
  ("minimal_span_Ic2_Ks4_5_3", true), ("minimal_span_Ks4_Ic2_5_3", true),
  ("minimal_span_Ks1_Ks3_5_10", true), ("minimal_span_Ks1_Ic1_5_10", true),
  ("minimal_span_Ic1_Ks3_5_10", true), ("minimal_stay_Ks1_3", true),
  ("minimal_stay_Ks1_5", false), ("minimal_stay_Ks3_3", true), ("minimal_stay_Ks3_5", true),
  ("minimal_stay_Ic1_3", false), ("minimal_stay_Ic1_5", true), ("minimal_stay_Ks2_5", false),
  ("minimal_stay_Ks2_3", true), ("minimal_stay_Ks4_5", true), ("minimal_stay_Ks4_3", true),
  ("minimal_stay_Ic2_5", true), ("minimal_stay_Ic2_3", true),
  ("single_line_Ks1_Ks2_1_3", true), ("single_line_Ks1_Ks4_1_3", true),
  ("single_line_Ks1_Ic2_1_3", true), ("single_line_Ks3_Ks2_1_3", true),
  ("single_line_Ks2_Ks3_3_1", true), ("single_line_Ks3_Ks4_1_3", true),
  ("single_line_Ks3_Ic2_1_3", true), ("single_line_Ic1_Ks2_1_3", true),
  ("single_line_Ic1_Ks4_1_3", true), ("single_line_Ks1_Ks2_3_5", true),
  ("single_line_Ks1_Ks4_3_5", true), ("single_line_Ks1_Ic2_3_5", true),
  ("single_line_Ks2_Ks3_5_3", true), ("single_line_Ks3_Ks4_3_5", true),
  ("single_line_Ks3_Ic2_3_5", true), ("single_line_Ic1_Ks2_3_5", true),
  ("single_line_Ks2_Ic1_5_3", true), ("single_line_Ic1_Ks4_3_5", true),
  ("single_line_Ks1_Ks2_5_10", true), ("single_line_Ks1_Ks4_5_10", true),
  ("single_line_Ks1_Ic2_5_10", true), ("single_line_Ks2_Ks3_10_5", true),
  ("single_line_Ks3_Ks4_5_10", true), ("single_line_Ks3_Ic2_5_10", true),
  ("single_line_Ic1_Ks2_5_10", false), ("single_line_Ks2_Ic1_10_5", true),
  ("single_line_Ic1_Ks4_5_10", true)]

/-- `/repo/solutions_quantum/wisla/data4diagrams/PULP_CBC_CMD_wisla_case1.pkl`, minutes after
8:00 -/
def printed : Dict Val (Dict Val Printed) := [
  (ks1, [
    (s1, ⟨.none, .none, some 0, some 0, some 0, some 0⟩),
    (s3, ⟨some 4, some 4, some 5, some 0, some 5, some 0⟩),
    (s5, ⟨some 11, some 11, some 12, some 0, some 12, some 0⟩),
    (s10, ⟨some 18, some 18, .none, .none, .none, .none⟩)]),
  (ks3, [
    (s1, ⟨.none, .none, some 60, some 0, some 60, some 0⟩),
    (s3, ⟨some 64, some 64, some 65, some 0, some 65, some 0⟩),
    (s5, ⟨some 71, some 71, some 72, some 0, some 72, some 0⟩),
    (s10, ⟨some 78, some 78, .none, .none, .none, .none⟩)]),
  (ic1, [
    (s1, ⟨.none, .none, some 30, some 0, some 30, some 0⟩),
    (s3, ⟨some 34, some 34, some 35, some 0, some 35, some 0⟩),
    (s5, ⟨some 39, some 39, some 46, some 6, some 40, some (27/50)⟩),
    (s10, ⟨some 51, some 45, .none, .none, .none, .none⟩)]),
  (ks2, [
    (s10, ⟨.none, .none, some 40, some 0, some 40, some 0⟩),
    (s5, ⟨some 46, some 46, some 47, some 0, some 47, some 0⟩),
    (s3, ⟨some 53, some 53, some 54, some 0, some 54, some 0⟩),
    (s1, ⟨some 58, some 58, .none, .none, .none, .none⟩)]),
  (ks4, [
    (s10, ⟨.none, .none, some 100, some 0, some 100, some 0⟩),
    (s5, ⟨some 106, some 106, some 107, some 0, some 107, some 0⟩),
    (s3, ⟨some 113, some 113, some 114, some 0, some 114, some 0⟩),
    (s1, ⟨some 118, some 118, .none, .none, .none, .none⟩)]),
  (ic2, [
    (s10, ⟨.none, .none, some 95, some 0, some 95, some 0⟩),
    (s5, ⟨some 100, some 100, some 101, some 0, some 101, some 0⟩),
    (s3, ⟨some 105, some 105, some 106, some 0, some 106, some 0⟩),
    (s1, ⟨some 110, some 110, .none, .none, .none, .none⟩)])]

/-- **C74**, recorded results: the sample stored in the repository is judged by the model as the
program judged it (names and order of the constraints, which of them hold, how many, objective, not
feasible), and the printed timetable stored in the repository is the one that the model prints for
the optimum. -/
theorem C74_recorded : ∃ b, buildProblem ts tt 10 .integer = .ok b ∧
    (∀ en, analyzeSample b.prob (sample, en) = .ok ⟨en, 243/100, false, sample, recorded, 52⟩) ∧
    printOptimisationResults b.prob ts tt tt.tauPass (ts.skipStation.getD []) 10 0 (assign best) =
      .ok printed := by
  have hdom := assign_domain best_domain
  obtain ⟨b, hb, -⟩ := feasible_of_check (ts := ts) (tt := tt) (dmax := 10) (cat := .integer)
    (σ := assign best) (by decide +kernel) hdom.1 hdom.2
  have h : (match buildProblem ts tt 10 .integer with
      | .ok b => decide (getObjective b.prob sample = .ok (243/100)) &&
          decide (analyzeConstraints b.prob sample = .ok (recorded, 52)) &&
          decide (printOptimisationResults b.prob ts tt tt.tauPass (ts.skipStation.getD []) 10 0
            (assign best) = .ok printed)
      | .error _ => false) = true := by decide +kernel
  rw [hb] at h
  simp only [Bool.and_eq_true, decide_eq_true_eq] at h
  refine ⟨b, hb, fun en => ?_, h.2⟩
  unfold analyzeSample
  rw [h.1.1, h.1.2]
  have : recorded.all (·.2) = false := by decide +kernel
  simp only [bind, Except.bind, this]

end Verif.Wisla
