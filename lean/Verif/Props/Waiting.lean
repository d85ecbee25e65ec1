import Verif.Props.Equiv
import Verif.Props.Edt
import Mathlib.Algebra.Order.Archimedean.Basic
import Mathlib.SetTheory.Cardinal.Order

/-!
# C69: trains can wait

One expects that, if only `d_max` is large enough, there is a feasible plan: the trains run one after
the other, each of them when the one before is out of the way. This is true if the trains can be put
into such an order that no train begins on a track used by an earlier one (`C69_waiting_partial`), and
false in general (`C69_blocked` in `Waiting2.lean`, and `C69_false` in
`RealWaiting.lean` for shipped data).
-/

namespace Verif

variable {ts : TrainSets} {tt : Timetable}

/-- The trains can run one after the other in the order of `rank`: trains have different ranks; a train
that takes over the rolling stock of another one comes next after it; and no train begins on a station
track which is used by a train of smaller rank (of other rolling stock and subject to the rule for
station tracks), unless it takes over rolling stock there. Initial conditions are only given at the
first station of a train. -/
structure Serial (ts : TrainSets) (tt : Timetable) (rank : Val → ℕ) : Prop where
  distinct : ∀ j ∈ ts.J, ∀ jp ∈ ts.J, rank j = rank jp → j = jp
  listed : ∀ e ∈ ts.Jtrack, ∀ g ∈ e.2, ∀ j ∈ g, j ∈ ts.J
  stock : ∀ e ∈ ts.Jround, ∀ q ∈ e.2, q.1 ∈ ts.J ∧ q.2 ∈ ts.J ∧ rank q.2 = rank q.1 + 1
  start : ∀ e ∈ ts.Jtrack, ∀ g ∈ e.2, ∀ j ∈ g, ∀ jp ∈ g, rank j < rank jp → ¬ SameStock ts j jp →
    ¬ TrackExempt ts e.1 j → PrevOf ts jp e.1 .none → ∃ jr, TakesOver ts jp e.1 jr
  initial : ∀ j s p, PrevOf ts j s p → p ≠ .none →
    Dict.get? tt.initialConditions (key2 j s) = .none

/-- a bound for finitely many numbers -/
theorem exists_bound {α : Type} (l : List α) (f : α → ℚ) : ∃ B : ℚ, 0 ≤ B ∧ ∀ a ∈ l, |f a| ≤ B := by
  induction l with
  | nil => exact ⟨0, le_refl _, by simp⟩
  | cons a l ih =>
    obtain ⟨B, h0, h⟩ := ih
    refine ⟨max B |f a|, le_max_of_le_left h0, ?_⟩
    intro x hx
    rcases List.mem_cons.1 hx with rfl | hx
    · exact le_max_right _ _
    · exact (h x hx).trans (le_max_left _ _)

theorem dict_bound {K : Type} [DecidableEq K] (d : Dict K ℚ) :
    ∃ B : ℚ, 0 ≤ B ∧ ∀ k v, Dict.get? d k = some v → |v| ≤ B := by
  obtain ⟨B, h0, h⟩ := exists_bound d (fun x : K × ℚ => x.2)
  refine ⟨B, h0, fun k v hv => ?_⟩
  have h1 : (k, v) ∈ d := Dict.mem_of_get? hv
  exact h (k, v) h1

/-- earliest departures are bounded -/
theorem edt_bound (ts : TrainSets) (tt : Timetable) : ∃ B : ℚ, 0 ≤ B ∧ ∀ j s e,
    HasDelay ts j s → earliestDepTime ts.paths tt j s = .ok e → |e| ≤ B := by
  obtain ⟨B, h0, h⟩ := exists_bound (ts.paths.flatMap fun x => x.2.map fun s => (x.1, s))
    fun y => match earliestDepTime ts.paths tt y.1 y.2 with
      | .ok e => e
      | .error _ => 0
  refine ⟨B, h0, ?_⟩
  rintro j s e ⟨-, ⟨path, hp, hs⟩, -⟩ he
  have := h (j, s) (List.mem_flatMap.2 ⟨_, Dict.mem_of_get? hp, List.mem_map.2 ⟨s, hs, rfl⟩⟩)
  simpa [he] using this

/-- `j` before `jp`: by rank, and anyhow for equal ranks -/
def Ahead (rank : Val → ℕ) (j jp : Val) : Prop :=
  rank j < rank jp ∨ rank j = rank jp ∧ WellOrderingRel j jp

theorem ahead_one {rank : Val → ℕ} {j jp : Val} (h : j ≠ jp) : Ahead rank j jp ↔ ¬ Ahead rank jp j := by
  unfold Ahead
  constructor
  · rintro (h1 | ⟨h1, h2⟩) (h3 | ⟨h3, h4⟩)
    · omega
    · omega
    · omega
    · exact asymm h2 h4
  · intro hn
    rcases lt_trichotomy (rank j) (rank jp) with h1 | h1 | h1
    · exact .inl h1
    · refine .inr ⟨h1, ?_⟩
      rcases trichotomous_of WellOrderingRel j jp with h2 | h2 | h2
      · exact h2
      · exact absurd h2 h
      · exact absurd (.inr ⟨h1.symm, h2⟩) hn
    · exact absurd (.inl h1) hn

/-- the trains run one after the other, `M` minutes apart -/
def serialPlan (rank : Val → ℕ) (M : ℚ) : Plan where
  delay := fun j _ => rank j * M
  F3 := fun j jp _ => Ahead rank j jp
  F4 := fun j jp s sp => Ahead rank j jp ∨ j = jp ∧ WellOrderingRel s sp
  FI := fun j jp _ => Ahead rank j jp

theorem ahead_self {rank : Val → ℕ} {j : Val} : ¬ Ahead rank j j := by
  rintro (h | ⟨-, h⟩)
  · omega
  · exact irrefl _ h

theorem serialPlan_valid {rank : Val → ℕ} {n : ℕ} {cat : Cat} {dmax : ℚ}
    (h : ∀ j ∈ ts.J, rank j * (n : ℚ) ≤ dmax) : (serialPlan rank n).Valid ts dmax cat where
  low := fun j s _ => by simp only [serialPlan]; positivity
  up := fun j s hd => h j hd.1
  int := fun _ j s _ => ⟨rank j * n, by simp [serialPlan]⟩
  one3 := fun j jp s h => ahead_one h
  oneIn := fun j jp s h => ahead_one h
  one4 := by
    intro j jp s sp h
    simp only [serialPlan]
    by_cases hj : j = jp
    · subst hj
      have hs : s ≠ sp := fun e => h ⟨rfl, e⟩
      simp only [ahead_self, false_or, true_and]
      constructor
      · exact fun h1 h2 => asymm h1 h2
      · intro hn
        rcases trichotomous_of WellOrderingRel s sp with h2 | h2 | h2
        · exact h2
        · exact absurd h2 hs
        · exact absurd h2 hn
    · have hj' : jp ≠ j := fun e => hj e.symm
      simp only [hj, hj', false_and, or_false]
      exact ahead_one hj

theorem takesOver_mem {j s jr : Val} (h : TakesOver ts j s jr) :
    ∃ e ∈ ts.Jround, e.1 = s ∧ (jr, j) ∈ e.2 := by
  obtain ⟨ps, h1, h2, -⟩ := h
  exact ⟨_, Dict.mem_of_get? h1, rfl, List.mem_of_find?_eq_some h2⟩

theorem continuedBy_mem {j s jp : Val} (h : ContinuedBy ts j s jp) :
    ∃ e ∈ ts.Jround, e.1 = s ∧ (j, jp) ∈ e.2 := by
  obtain ⟨ps, h1, h2, -⟩ := h
  exact ⟨_, Dict.mem_of_get? h1, rfl, List.mem_of_find?_eq_some h2⟩

/-- the rules hold for trains that run far enough apart -/
theorem serial_rules {rank : Val → ℕ} (hwf : WellFormed ts) (S : Serial ts tt rank) : ∃ n : ℕ, ∀ y,
    AllRules ts tt ((serialPlan rank n).D ts tt) y (serialPlan rank n).F3 (serialPlan rank n).F4
      (serialPlan rank n).FI := by
  obtain ⟨Be, he0, he⟩ := edt_bound ts tt
  obtain ⟨Bh, hh0, hh⟩ := dict_bound tt.tauHeadway
  obtain ⟨Bp, hp0, hp⟩ := dict_bound tt.tauPass
  obtain ⟨Bq, hq0, hq⟩ := dict_bound tt.tauPrep
  obtain ⟨n, hn⟩ := exists_nat_gt (2 * Be + Bh + 2 * Bp + Bq + |tt.tauRes.getD 0|)
  refine ⟨n, fun y => ?_⟩
  have hres : ∀ r, Res tt r → |r| ≤ |tt.tauRes.getD 0| := by
    intro r hr
    unfold Res at hr
    rw [hr]
    exact le_refl _
  -- departures of different trains are far apart
  have D0 : ∀ {j s t}, (serialPlan rank n).D ts tt j s t →
      j ∈ ts.J ∧ rank j * (n : ℚ) - Be ≤ t ∧ t ≤ rank j * (n : ℚ) + Be := by
    rintro j s t ⟨hd, e, h1, rfl⟩
    have h2 := abs_le.1 (he j s e hd h1)
    simp only [serialPlan]
    exact ⟨hd.1, by linarith, by linarith⟩
  have far : ∀ {j jp s sp t tp}, rank j < rank jp → (serialPlan rank n).D ts tt j s t →
      (serialPlan rank n).D ts tt jp sp tp →
      t + (Bh + 2 * Bp + Bq + |tt.tauRes.getD 0|) ≤ tp := by
    intro j jp s sp t tp hlt h1 h2
    have h3 := (D0 h1).2.2
    have h4 := (D0 h2).2.1
    have h5 : (rank j : ℚ) + 1 ≤ rank jp := by exact_mod_cast hlt
    have h6 : ((rank j : ℚ) + 1) * n ≤ rank jp * n :=
      mul_le_mul_of_nonneg_right h5 (by positivity)
    linarith
  have ahead : ∀ {j jp s sp t tp}, Ahead rank j jp → (serialPlan rank n).D ts tt j s t →
      (serialPlan rank n).D ts tt jp sp tp → rank j < rank jp := by
    intro j jp s sp t tp ha h1 h2
    rcases ha with h | ⟨h, h'⟩
    · exact h
    · cases S.distinct j (D0 h1).1 jp (D0 h2).1 h
      exact absurd h' (irrefl _)
  have hR := abs_nonneg (tt.tauRes.getD 0)
  have hpass : ∀ {j s sp w}, Pass tt j s sp w → w ≤ Bp ∧ -Bp ≤ w := fun h =>
    ⟨(abs_le.1 (hp _ _ h)).2, (abs_le.1 (hp _ _ h)).1⟩
  have hone : ∀ {s j jp : Val}, (∃ e ∈ ts.Jtrack, e.1 = s ∧ ∃ g ∈ e.2, j ∈ g ∧ jp ∈ g) →
      ¬ SameStock ts j jp → ¬ TrackExempt ts s j → j ≠ jp →
      TrackOne ts tt ((serialPlan rank n).D ts tt) (serialPlan rank n).F3 s j jp := by
    rintro s j jp ⟨e, he1, rfl, g, hg, hj, hjp⟩ hst hex hne
    refine ⟨?_, ?_⟩
    · intro jrr hc
      obtain ⟨e', he', hs', hq'⟩ := continuedBy_mem hc
      obtain ⟨h1, h2, h3⟩ := S.stock e' he' _ hq'
      have hjJ := S.listed e he1 g hg jp hjp
      have hne2 : jp ≠ jrr := by
        rintro rfl
        exact hst ⟨hne, e', he', .inl hq'⟩
      simp only at h1 h2 h3
      simp only [serialPlan, Ahead]
      have k1 : rank jp ≠ rank j := fun e => hne (S.distinct jp hjJ j h1 e).symm
      have k2 : rank jp ≠ rank jrr := fun e => hne2 (S.distinct jp hjJ jrr h2 e)
      simp only [k1, k2, false_and, or_false]
      omega
    · intro hc hF t a r hD hA hr
      have hr' : r ≤ |tt.tauRes.getD 0| := by
        rcases hr with ⟨-, hr⟩ | ⟨-, rfl⟩
        · exact (le_abs_self r).trans (hres r hr)
        · exact hR
      have hF' : Ahead rank j jp := hF
      rcases hA with ⟨jr, p, t', w, hto, hpr, hD', hw, rfl⟩ | ⟨hto, p, t', w, hpr, hpn, hD', hw, rfl⟩ |
        ⟨hto, hpr, -⟩
      · obtain ⟨e', he', hs', hq'⟩ := takesOver_mem hto
        obtain ⟨h1, h2, h3⟩ := S.stock e' he' _ hq'
        simp only at h1 h2 h3
        have hjr : j ≠ jr := by
          rintro rfl
          exact hst ⟨hne, e', he', .inl hq'⟩
        have hlt : rank j < rank jp := by
          rcases hF' with h | ⟨h, h'⟩
          · exact h
          · exact absurd (S.distinct j (D0 hD).1 jp h2 h) hne
        have : rank j ≠ rank jr := fun e => hjr (S.distinct j (D0 hD).1 jr h1 e)
        have := far (by omega : rank j < rank jr) hD hD'
        have := hpass hw
        linarith
      · have := far (ahead hF' hD hD') hD hD'
        have := hpass hw
        linarith
      · exfalso
        have hlt : rank j < rank jp := by
          rcases hF' with h | ⟨h, h'⟩
          · exact h
          · exact absurd (S.distinct j (D0 hD).1 jp (S.listed e he1 g hg jp hjp) h) hne
        obtain ⟨jr, hjr⟩ := S.start e he1 g hg j hj jp hjp hlt hst hex hpr
        exact hto jr hjr
  refine ⟨?_, ?_, ?_, ?_, ?_, ?_⟩
  · -- headway
    intro e he1 e2 he2 g hg j hj jp hjp hne hF t tp h hD hD' hh'
    have := far (ahead hF hD hD') hD hD'
    have := (abs_le.1 (hh _ _ hh')).2
    linarith
  · -- stay
    rintro j hj s p hpr hpn t tp w st hD hD' hw hst
    obtain ⟨hd, ep, h1, rfl⟩ := hD
    obtain ⟨hd', e, h2, rfl⟩ := hD'
    obtain ⟨-, -, h3⟩ := C14_possible h2
    obtain ⟨p', w', st', ep', hpr', hw', hst', hep, hle⟩ := h3 (S.initial j s p hpr hpn)
    have : p' = p := by
      obtain ⟨path, hp1, hp2⟩ := hpr
      obtain ⟨path', hp1', hp2'⟩ := hpr'
      rw [hp1] at hp1'
      cases hp1'
      exact prevOn_unique hp2' hp2
    subst this
    unfold Pass at hw hw'
    unfold Stop at hst hst'
    rw [hw] at hw'
    rw [hst] at hst'
    rw [h1] at hep
    cases hw'
    cases hst'
    cases hep
    simp only [serialPlan]
    linarith
  · -- single line
    intro e he1 q hq' hst
    have hne := hwf.josingle e he1 q hq'
    have hF4 : ∀ {j jp s sp}, j ≠ jp → (serialPlan rank n).F4 j jp s sp → Ahead rank j jp := by
      rintro j jp s sp hne (h | ⟨h, -⟩)
      · exact h
      · exact absurd h hne
    refine ⟨?_, ?_⟩
    · intro hF t tp h hD hD' hw
      have := far (ahead (hF4 hne hF) hD hD') hD hD'
      have := hpass hw
      linarith
    · intro hF t tp h hD hD' hw
      have := far (ahead (hF4 hne.symm hF) hD' hD) hD' hD
      have := hpass hw
      linarith
  · -- tracks
    intro e he1 g hg j jp hsub hst
    have hj : j ∈ g := hsub.subset (by simp)
    have hjp : jp ∈ g := hsub.subset (by simp)
    have hne : j ≠ jp := by
      have := (hwf.jtrack e he1 g hg).sublist hsub
      simpa using this
    have hst' : ¬ SameStock ts jp j := fun ⟨h1, e', h2, h3⟩ => hst ⟨h1.symm, e', h2, h3.symm⟩
    refine ⟨fun hex => ⟨?_, hone ⟨e, he1, rfl, g, hg, hjp, hj⟩ hst' hex hne.symm⟩,
      fun hex => hone ⟨e, he1, rfl, g, hg, hj, hjp⟩ hst hex hne⟩
    intro sp d _ _ _ _
    exact ⟨fun _ _ _ => Iff.rfl, fun _ _ => Iff.rfl⟩
  · -- circulation
    intro e he1 q hq1 p hpr t tp w pr hD hD' hw hpp
    obtain ⟨h1, h2, h3⟩ := S.stock e he1 q hq1
    have := far (by omega : rank q.1 < rank q.2) hD hD'
    have := hpass hw
    have := (abs_le.1 (hq _ _ hpp)).2
    linarith
  · -- switches
    intro e he1 pair hpair j a jp c hpe hst p m pp mp r hm hmp hr
    have hne : j ≠ jp := by
      have := (hwf.jswitch e he1 pair hpair).1
      rw [hpe] at this
      simpa [Dict.keys] using this
    have hr' := (le_abs_self r).trans (hres r hr)
    -- the train departs from some station not long before
    have hdep : ∀ {j a p m}, SwitchMoment ts tt ((serialPlan rank n).D ts tt) e.1 j a p m →
        ∃ s t, (serialPlan rank n).D ts tt j s t ∧ t - Bp ≤ m ∧ m ≤ t + Bp := by
      rintro j a p m (⟨-, -, hD⟩ | ⟨-, -, t, w, hD, hw, rfl⟩)
      · exact ⟨_, _, hD, by linarith, by linarith⟩
      · have := hpass hw
        exact ⟨_, _, hD, by linarith, by linarith⟩
    have hfirst : ∀ {j p jp pp}, j ≠ jp → SwitchFirst ts (serialPlan rank n).F3 (serialPlan rank n).F4
        (serialPlan rank n).FI e.1 j p jp pp → Ahead rank j jp := by
      rintro j p jp pp hne (⟨-, -, -, h⟩ | ⟨-, -, h⟩ | ⟨-, -, h⟩ | ⟨-, -, -, h⟩)
      · exact h
      · exact h
      · rcases h with h | ⟨h, -⟩
        · exact h
        · exact absurd h hne
      · exact h
    obtain ⟨s1, t1, hD, h1, h2⟩ := hdep hm
    obtain ⟨s2, t2, hD', h1', h2'⟩ := hdep hmp
    refine ⟨fun hF => ?_, fun hF => ?_⟩
    · have := far (ahead (hfirst hne hF) hD hD') hD hD'
      linarith
    · have := far (ahead (hfirst hne.symm hF) hD' hD) hD' hD
      linarith

/-- C69, full statement for a problem: if `d_max` is large enough, there is a feasible plan. -/
def C69_statement (ts : TrainSets) (tt : Timetable) (cat : Cat) : Prop :=
  ∃ d0 : ℚ, ∀ dmax b, d0 ≤ dmax → buildProblem ts tt dmax cat = .ok b → ∃ σ, Feasible b σ

/-- **C69.** If the trains can run one after the other (`Serial`), there is a feasible plan for every
`d_max` that is large enough. Missing: trains that cannot be put into such an order, for which it is
false (`C69_false`). -/
theorem C69_waiting_partial (hn : NamesOK ts) (hw : WellFormed ts) (hround : RoundNames ts)
    {rank : Val → ℕ} (S : Serial ts tt rank) (cat : Cat) : C69_statement ts tt cat := by
  obtain ⟨n, hr⟩ := serial_rules hw S
  obtain ⟨B, h0, hB⟩ := exists_bound ts.J fun j => rank j * (n : ℚ)
  refine ⟨B, ?_⟩
  intro dmax b hd hb
  have hv : (serialPlan rank n).Valid ts dmax cat :=
    serialPlan_valid fun j hj => ((le_abs_self _).trans (hB j hj)).trans hd
  obtain ⟨σ, hσ, -⟩ := C10_complete hb hn hw hround hv (hr b.y)
  exact ⟨σ, hσ⟩

/-! ## The conditions can be met -/

namespace Small

/-- train 1 first, then trains 2, 3, 4 -/
def rank : Val → ℕ
  | .int n => n.toNat
  | _ => 0

theorem prev_cases {j s p : Val} (h : PrevOf Small.ts j s p) :
    (p = .none ∧ (j, s) ∈ [(t 1, A), (t 2, A), (t 3, B), (t 4, A)]) ∨
      (p ≠ .none ∧ (j, s) ∈ [(t 1, B), (t 1, C), (t 2, B), (t 2, C), (t 3, A), (t 4, B)]) := by
  obtain ⟨path, hp, hs⟩ := h
  have hm : (j, path) ∈ Small.ts.paths := Dict.mem_of_get? hp
  have hsp : s ∈ path := by
    rcases hs with ⟨l, r, e, -⟩ | ⟨r, e, -⟩ <;> rw [e] <;> simp
  have all : ∀ x ∈ Small.ts.paths, ∀ s ∈ x.2, ∃ q, previousStation x.2 s = .ok q ∧
      ((q = .none ∧ (x.1, s) ∈ [(t 1, A), (t 2, A), (t 3, B), (t 4, A)]) ∨
      (q ≠ .none ∧ (x.1, s) ∈ [(t 1, B), (t 1, C), (t 2, B), (t 2, C), (t 3, A), (t 4, B)])) := by
    intro x hx s hs
    simp only [Small.ts, List.mem_cons, List.not_mem_nil, or_false] at hx
    rcases hx with rfl | rfl | rfl | rfl <;>
    · simp only [List.mem_cons, List.not_mem_nil, or_false] at hs
      rcases hs with rfl | rfl | rfl <;> exact ⟨_, rfl, by decide⟩
  obtain ⟨q, hq, h⟩ := all _ hm s hsp
  rw [previousStation_iff.2 hs] at hq
  cases hq
  exact h

theorem serial : Serial Small.ts Small.tt rank where
  distinct := by decide
  listed := by decide
  stock := by decide
  start := by
    intro e he g hg j hj jp hjp hlt hs hex hp
    simp only [Small.ts, List.mem_cons, List.not_mem_nil, or_false] at he
    rcases prev_cases hp with ⟨-, h⟩ | ⟨h, -⟩
    · rcases he with rfl | rfl
      · simp only [List.mem_cons, List.not_mem_nil, or_false] at hg
        subst hg
        simp only [List.mem_cons, List.not_mem_nil, or_false] at hjp hj
        rcases hjp with rfl | rfl | rfl
        · rcases hj with rfl | rfl | rfl <;> exact absurd hlt (by decide)
        · exact absurd h (by decide)
        · exact ⟨t 3, _, rfl, by decide, by decide⟩
      · simp only [List.mem_cons, List.not_mem_nil, or_false] at hg
        subst hg
        simp only [List.mem_cons, List.not_mem_nil, or_false] at hjp
        rcases hjp with rfl | rfl <;> exact absurd h (by decide)
    · exact absurd rfl h
  initial := by
    intro j s p hp hne
    rcases prev_cases hp with ⟨h, -⟩ | ⟨-, h⟩
    · exact absurd h hne
    · have all : ∀ x ∈ [(t 1, B), (t 1, C), (t 2, B), (t 2, C), (t 3, A), (t 4, B)],
          Dict.get? Small.tt.initialConditions (key2 x.1 x.2) = .none := by
        decide +kernel
      exact all _ h

end Small

example (cat : Cat) : C69_statement Small.ts Small.tt cat :=
  C69_waiting_partial Small.namesOK Small.wellFormed (by unfold RoundNames; decide) Small.serial cat

end Verif
