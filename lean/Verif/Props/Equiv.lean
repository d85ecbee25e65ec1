import Verif.Props.Objective

/-!
# The linear problem excludes no conflict-free timetable: C10, C49
-/

namespace Verif

variable {ts : TrainSets} {tt : Timetable} {dmax : ℚ} {cat : Cat} {b : Built} {σ : LpVar → ℚ}

/-- **C10, equivalence.** For values in the declared domains: all constraints hold exactly when all
dispatching rules hold for the departures and precedences read off the values. -/
theorem C10_iff (hb : buildProblem ts tt dmax cat = .ok b) (hn : NamesOK ts) (hw : WellFormed ts)
    (ha : Admissible b σ) :
    Satisfies b.prob σ ↔ AllRules ts tt (Departs ts tt b.dv σ) b.y (First3 b.y σ) (First4 b.y σ)
      (FirstIn b.y σ) :=
  satisfies_iff_rules hb hn hw ha

/-- no train of a rolling-stock pair is called `"in"` -/
def RoundNames (ts : TrainSets) : Prop := ∀ e ∈ ts.Jround, ∀ p ∈ e.2, p.2 ≠ inKey

/-- **C10, nothing is excluded.** Any delays within bounds and any decision of the precedences that
keep the dispatching rules are the delays and precedences of a feasible assignment. -/
theorem C10_complete (hb : buildProblem ts tt dmax cat = .ok b) (hn : NamesOK ts)
    (hw : WellFormed ts) (hround : RoundNames ts) {π : Plan} (hv : π.Valid ts dmax cat)
    (hr : AllRules ts tt (π.D ts tt) b.y π.F3 π.F4 π.FI) :
    ∃ σ, Feasible b σ ∧ (∀ j s t, Departs ts tt b.dv σ j s t ↔ π.D ts tt j s t) ∧
      (∀ j jp s, j ≠ inKey → jp ≠ inKey → j ≠ jp → First3 b.y σ j jp s → π.F3 j jp s) ∧
      (∀ j jp s sp, j ≠ inKey → jp ≠ inKey → s ≠ oneStation → sp ≠ oneStation →
        ¬ (j = jp ∧ s = sp) → First4 b.y σ j jp s sp → π.F4 j jp s sp) ∧
      (∀ j jp s, j ≠ jp → FirstIn b.y σ j jp s → π.FI j jp s) := by
  have P := parts hb
  refine ⟨π.assign, ⟨assign_admissible P hv, plan_satisfies hb hn hw hround hv hr⟩,
    assign_departs P, ?_, ?_, ?_⟩
  · intro j jp s h1 h2 h3 h4; exact assign_first3 P hv h1 h2 h3 h4
  · intro j jp s sp h1 h2 h3 h4 h5 h6; exact assign_first4 P hv h1 h2 h3 h4 h5 h6
  · intro j jp s h1 h2; exact assign_firstIn P hv h1 h2

/-- **C10, converse.** The delays and precedences of every feasible assignment form a valid plan
that keeps the rules. -/
theorem C10_converse (hb : buildProblem ts tt dmax cat = .ok b) (hn : NamesOK ts)
    (hw : WellFormed ts) (hround : RoundNames ts) (hf : Feasible b σ) :
    ∃ π : Plan, π.Valid ts dmax cat ∧ (∀ j s t, π.D ts tt j s t ↔ Departs ts tt b.dv σ j s t) ∧
      AllRules ts tt (π.D ts tt) b.y π.F3 π.F4 π.FI :=
  ⟨planOf b dmax cat σ, planOf_valid (parts hb) hn hf.adm, planOf_rules hb hn hw hround hf⟩

/-- the hypotheses of C10 are met: the small example has a feasible assignment, hence a valid plan
that keeps the rules -/
example : ∃ (b : Built) (π : Plan), buildProblem Small.ts Small.tt 10 .integer = .ok b ∧ NamesOK Small.ts ∧
    WellFormed Small.ts ∧ RoundNames Small.ts ∧ π.Valid Small.ts 10 .integer ∧
    AllRules Small.ts Small.tt (π.D Small.ts Small.tt) b.y π.F3 π.F4 π.FI := by
  obtain ⟨b, hb, hf⟩ := Small.feasible
  have hr : RoundNames Small.ts := by unfold RoundNames; decide
  obtain ⟨π, h1, _, h2⟩ := C10_converse hb Small.namesOK Small.wellFormed hr hf
  exact ⟨b, π, hb, Small.namesOK, Small.wellFormed, hr, h1, h2⟩

/-- the assignment of another `d_max` with the same delays and precedences -/
def transfer (dmax : ℚ) (cat : Cat) (σ : LpVar → ℚ) (v : LpVar) : ℚ :=
  match v.vid with
  | .delay j s => σ (dVar j s dmax cat)
  | .order _ _ _ _ => σ v

/-- **C49.** If delays and precedences are feasible for `d_max`, they are feasible for any larger
`d_max'` (for which a problem can be built), with the same departures and the same total weighted
delay `d_max * objective`. -/
theorem C49_relax {dmax' : ℚ} {b' : Built} (hb : buildProblem ts tt dmax cat = .ok b)
    (hb' : buildProblem ts tt dmax' cat = .ok b') (hle : dmax ≤ dmax') (hn : NamesOK ts)
    (hw : WellFormed ts) (hf : Feasible b σ) :
    ∃ σ', Feasible b' σ' ∧
      (∀ j s t, Departs ts tt b'.dv σ' j s t ↔ Departs ts tt b.dv σ j s t) ∧
      (∀ j jp s, First3 b'.y σ' j jp s ↔ First3 b.y σ j jp s) ∧
      (∀ j jp s sp, First4 b'.y σ' j jp s sp ↔ First4 b.y σ j jp s sp) ∧
      (∀ j jp s, FirstIn b'.y σ' j jp s ↔ FirstIn b.y σ j jp s) ∧
      (dmax ≠ 0 → dmax' ≠ 0 →
        dmax' * b'.prob.objective.eval σ' = dmax * b.prob.objective.eval σ) := by
  have P := parts hb
  have P' := parts hb'
  have hy : b'.y = b.y := by
    have h1 := P.hy
    rw [P'.hy] at h1
    exact Except.ok.inj h1
  have hord : ∀ {p q r s : Val} {v : LpVar}, at4 b.y p q r s = .ok v →
      transfer dmax cat σ v = σ v := by
    intro p q r s v hv
    obtain ⟨h1, _⟩ := orderVariables_isOrderVar P.hy hv
    unfold transfer
    rw [h1]
  have hdel : ∀ {j s : Val} {v : LpVar}, delayAt b'.dv j s = .ok v →
      HasDelay ts j s ∧ v = dVar j s dmax' cat ∧ transfer dmax cat σ v = σ (dVar j s dmax cat) := by
    intro j s v hv
    rw [delayAt_ok, delayVariables_find P'.hdv] at hv
    obtain ⟨h1, rfl⟩ := hv
    exact ⟨h1, rfl, rfl⟩
  have hdel' : ∀ {j s : Val}, HasDelay ts j s → delayAt b.dv j s = .ok (dVar j s dmax cat) :=
    fun h => delayAt_ok.2 ((delayVariables_find P.hdv).2 ⟨h, rfl⟩)
  have hdel'' : ∀ {j s : Val}, HasDelay ts j s → delayAt b'.dv j s = .ok (dVar j s dmax' cat) :=
    fun h => delayAt_ok.2 ((delayVariables_find P'.hdv).2 ⟨h, rfl⟩)
  have hdep : ∀ j s t, Departs ts tt b'.dv (transfer dmax cat σ) j s t ↔
      Departs ts tt b.dv σ j s t := by
    intro j s t
    unfold Departs
    constructor
    · rintro ⟨e, v, he, hv, rfl⟩
      obtain ⟨h1, rfl, h2⟩ := hdel hv
      exact ⟨e, _, he, hdel' h1, by rw [h2]⟩
    · rintro ⟨e, v, he, hv, rfl⟩
      rw [delayAt_ok, delayVariables_find P.hdv] at hv
      obtain ⟨h1, rfl⟩ := hv
      exact ⟨e, _, he, hdel'' h1, rfl⟩
  have hone : ∀ {p q r s : Val} {x : ℚ}, (∃ v, at4 b.y p q r s = .ok v ∧ transfer dmax cat σ v = x) ↔
      (∃ v, at4 b.y p q r s = .ok v ∧ σ v = x) := by
    intro p q r s x
    exact ⟨fun ⟨v, h1, h2⟩ => ⟨v, h1, hord h1 ▸ h2⟩, fun ⟨v, h1, h2⟩ => ⟨v, h1, (hord h1).trans h2⟩⟩
  have h3 : ∀ j jp s, First3 b'.y (transfer dmax cat σ) j jp s ↔ First3 b.y σ j jp s := by
    intro j jp s; unfold First3; rw [hy, hone, hone]
  have h4 : ∀ j jp s sp, First4 b'.y (transfer dmax cat σ) j jp s sp ↔ First4 b.y σ j jp s sp := by
    intro j jp s sp; unfold First4; rw [hy, hone, hone]
  have hi : ∀ j jp s, FirstIn b'.y (transfer dmax cat σ) j jp s ↔ FirstIn b.y σ j jp s := by
    intro j jp s; unfold FirstIn; rw [hy, hone, hone]
  have ha : Admissible b' (transfer dmax cat σ) := by
    constructor
    · intro j s v hv
      obtain ⟨h1, rfl, h2⟩ := hdel hv
      obtain ⟨d1, d2, d3⟩ := hf.adm.delays j s _ (hdel' h1)
      unfold InDomain
      rw [h2]
      exact ⟨d1, le_trans d2 hle, d3⟩
    · intro p q r s v hv
      rw [hy] at hv
      rw [hord hv]
      exact hf.adm.orders p q r s v hv
  refine ⟨transfer dmax cat σ, ⟨ha, ?_⟩, hdep, h3, h4, hi, ?_⟩
  · have e1 : Departs ts tt b'.dv (transfer dmax cat σ) = Departs ts tt b.dv σ := by
      funext j s t; exact propext (hdep j s t)
    have e2 : First3 b'.y (transfer dmax cat σ) = First3 b.y σ := by
      funext j jp s; exact propext (h3 j jp s)
    have e3 : First4 b'.y (transfer dmax cat σ) = First4 b.y σ := by
      funext j jp s sp; exact propext (h4 j jp s sp)
    have e4 : FirstIn b'.y (transfer dmax cat σ) = FirstIn b.y σ := by
      funext j jp s; exact propext (hi j jp s)
    rw [satisfies_iff_rules hb' hn hw ha, e1, e2, e3, e4, hy]
    exact (satisfies_iff_rules hb hn hw hf.adm).1 hf.sat
  · intro n0 n0'
    obtain ⟨d, hd⟩ := delays_exist b.dv σ
    have hd' : Delays b'.dv (transfer dmax cat σ) d := by
      intro j s
      constructor
      · intro v hv
        obtain ⟨h1, rfl, h2⟩ := hdel hv
        rw [h2]
        exact (hd j s).1 _ (hdel' h1)
      · intro h
        refine (hd j s).2 fun v hv => ?_
        rw [delayAt_ok, delayVariables_find P.hdv] at hv
        exact h _ (hdel'' hv.1)
    rw [(C17_objective hb hd).1, (C17_objective hb' hd').1]
    field_simp

/-- the hypotheses of C49 are met -/
example : ∃ b b', buildProblem Small.ts Small.tt 10 .integer = .ok b ∧
    buildProblem Small.ts Small.tt 20 .integer = .ok b' ∧ NamesOK Small.ts ∧
    WellFormed Small.ts ∧ Feasible b Small.σ := by
  obtain ⟨b, hb, hf⟩ := Small.feasible
  have : (match buildProblem Small.ts Small.tt 20 .integer with
    | .ok _ => true
    | .error _ => false) = true := by decide +kernel
  split at this
  · rename_i b' hb'
    exact ⟨b, b', hb, hb', Small.namesOK, Small.wellFormed, hf⟩
  · cases this

end Verif
