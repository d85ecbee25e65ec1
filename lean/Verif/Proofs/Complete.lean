import Verif.Proofs.Assemble
import Verif.Spec.Plan
import Mathlib.Data.String.Basic

/-!
# Every plan that keeps the rules is an assignment of the linear problem
-/

namespace Verif

open Classical in
/-- the assignment of a plan -/
noncomputable def Plan.assign (π : Plan) (v : LpVar) : ℚ :=
  match v.vid with
  | .delay j s => π.delay j s
  | .order a b c d =>
    if a = inKey then (if π.FI b c d then 1 else 0)
    else if c = oneStation then (if π.F3 a b d then 1 else 0)
    else (if π.F4 a b c d then 1 else 0)

section
variable {ts : TrainSets} {tt : Timetable} {dmax : ℚ} {cat : Cat} {b : Built} {π : Plan}
  (P : Parts ts tt dmax cat b)
include P

theorem assign_departs (j s : Val) (t : ℚ) :
    Departs ts tt b.dv π.assign j s t ↔ π.D ts tt j s t := by
  unfold Departs Plan.D
  constructor
  · rintro ⟨e, v, he, hv, rfl⟩
    rw [delayAt_ok, delayVariables_find P.hdv] at hv
    obtain ⟨h, rfl⟩ := hv
    exact ⟨h, e, he, rfl⟩
  · rintro ⟨h, e, he, rfl⟩
    exact ⟨e, dVar j s dmax cat, he, delayAt_ok.2 ((delayVariables_find P.hdv).2 ⟨h, rfl⟩), rfl⟩

theorem assign_admissible (hv : π.Valid ts dmax cat) : Admissible b π.assign := by
  constructor
  · intro j s v h
    rw [delayAt_ok, delayVariables_find P.hdv] at h
    obtain ⟨h, rfl⟩ := h
    exact ⟨hv.low j s h, hv.up j s h, fun hc => hv.int hc j s h⟩
  · intro a b' c d v h
    obtain ⟨h1, h2, h3, h4⟩ := orderVariables_isOrderVar P.hy h
    unfold InDomain
    rw [h2, h3]
    have : π.assign v = 0 ∨ π.assign v = 1 := by
      unfold Plan.assign
      rw [h1]
      simp only
      split
      · split <;> simp
      · split <;> split <;> simp
    rcases this with h | h <;> rw [h]
    · exact ⟨le_refl _, by norm_num, fun _ => ⟨0, by simp⟩⟩
    · exact ⟨by norm_num, le_refl _, fun _ => ⟨1, by simp⟩⟩

variable (hv : π.Valid ts dmax cat)
include hv

theorem assign_first3 {j jp s : Val} (hj : j ≠ inKey) (hjp : jp ≠ inKey) (hne : j ≠ jp)
    (h : First3 b.y π.assign j jp s) : π.F3 j jp s := by
  rcases h with ⟨v, h1, h2⟩ | ⟨v, h1, h2⟩
  · obtain ⟨h3, _⟩ := orderVariables_isOrderVar P.hy h1
    unfold Plan.assign at h2
    rw [h3] at h2
    simp only [hj, if_false, if_true] at h2
    by_contra hn
    simp [hn] at h2
  · obtain ⟨h3, _⟩ := orderVariables_isOrderVar P.hy h1
    unfold Plan.assign at h2
    rw [h3] at h2
    simp only [hjp, if_false, if_true] at h2
    rw [hv.one3 j jp s hne]
    intro hn
    simp [hn] at h2

theorem assign_first4 {j jp s sp : Val} (hj : j ≠ inKey) (hjp : jp ≠ inKey) (hs : s ≠ oneStation)
    (hsp : sp ≠ oneStation) (hne : ¬ (j = jp ∧ s = sp))
    (h : First4 b.y π.assign j jp s sp) : π.F4 j jp s sp := by
  rcases h with ⟨v, h1, h2⟩ | ⟨v, h1, h2⟩
  · obtain ⟨h3, _⟩ := orderVariables_isOrderVar P.hy h1
    unfold Plan.assign at h2
    rw [h3] at h2
    simp only [hj, hs, if_false] at h2
    by_contra hn
    simp [hn] at h2
  · obtain ⟨h3, _⟩ := orderVariables_isOrderVar P.hy h1
    unfold Plan.assign at h2
    rw [h3] at h2
    simp only [hjp, hsp, if_false] at h2
    rw [hv.one4 j jp s sp hne]
    intro hn
    simp [hn] at h2

theorem assign_firstIn {j jp s : Val} (hne : j ≠ jp)
    (h : FirstIn b.y π.assign j jp s) : π.FI j jp s := by
  rcases h with ⟨v, h1, h2⟩ | ⟨v, h1, h2⟩
  · obtain ⟨h3, _⟩ := orderVariables_isOrderVar P.hy h1
    unfold Plan.assign at h2
    rw [h3] at h2
    simp only [if_true] at h2
    by_contra hn
    simp [hn] at h2
  · obtain ⟨h3, _⟩ := orderVariables_isOrderVar P.hy h1
    unfold Plan.assign at h2
    rw [h3] at h2
    simp only [if_true] at h2
    rw [hv.oneIn j jp s hne]
    intro hn
    simp [hn] at h2

omit hv in
theorem firstP_total {σ : LpVar → ℚ} (ha : Admissible b σ) {p q : OPath}
    (h : findP b.y p ≠ .none ∨ findP b.y q ≠ .none) :
    FirstP b.y σ p q ∨ FirstP b.y σ q p := by
  rcases h with h | h
  · obtain ⟨v, hv⟩ := Option.ne_none_iff_exists'.1 h
    rcases at4_val P.hy ha.orders (at4_ok.2 hv) with h0 | h0
    · exact .inr (.inr ⟨v, hv, h0⟩)
    · exact .inl (.inl ⟨v, hv, h0⟩)
  · obtain ⟨v, hv⟩ := Option.ne_none_iff_exists'.1 h
    rcases at4_val P.hy ha.orders (at4_ok.2 hv) with h0 | h0
    · exact .inl (.inr ⟨v, hv, h0⟩)
    · exact .inr (.inl ⟨v, hv, h0⟩)

theorem assign_first3_iff {j jp s : Val} (hj : j ≠ inKey) (hjp : jp ≠ inKey) (hne : j ≠ jp)
    (hex : findP b.y (j, jp, oneStation, s) ≠ .none ∨ findP b.y (jp, j, oneStation, s) ≠ .none) :
    First3 b.y π.assign j jp s ↔ π.F3 j jp s := by
  refine ⟨assign_first3 P hv hj hjp hne, fun h => ?_⟩
  rcases firstP_total P (assign_admissible P hv) hex with h1 | h1
  · exact first3_iff.2 h1
  · exact absurd (assign_first3 P hv hjp hj (Ne.symm hne) (first3_iff.2 h1))
      ((hv.one3 j jp s hne).1 h)

theorem assign_firstIn_iff {j jp s : Val} (hne : j ≠ jp)
    (hex : findP b.y (inKey, j, jp, s) ≠ .none ∨ findP b.y (inKey, jp, j, s) ≠ .none) :
    FirstIn b.y π.assign j jp s ↔ π.FI j jp s := by
  refine ⟨assign_firstIn P hv hne, fun h => ?_⟩
  rcases firstP_total P (assign_admissible P hv) hex with h1 | h1
  · exact firstIn_iff.2 h1
  · exact absurd (assign_firstIn P hv (Ne.symm hne) (firstIn_iff.2 h1))
      ((hv.oneIn j jp s hne).1 h)

end

/-- lookups of the branch of `trains_order_at_s` for a train that is continued -/
theorem continued_lookups {ts : TrainSets} {tt : Timetable} {dmax : ℚ} {dv : DelayVars}
    {y : OrderVars} {s j jp jrr : Val} (h : Oks (trainsOrderAtS s j jp tt dv y ts dmax))
    (hc : ContinuedBy ts j s jrr) :
    (findP y (jp, j, oneStation, s) ≠ .none ∨ findP y (j, jp, oneStation, s) ≠ .none) ∧
    (findP y (jp, jrr, oneStation, s) ≠ .none ∨ findP y (jrr, jp, oneStation, s) ≠ .none) := by
  obtain ⟨rfl, hn⟩ := continuedBy_iff.1 hc
  obtain ⟨cs, h⟩ := h
  unfold trainsOrderAtS at h
  simp only [ne_eq, hn, not_false_eq_true, if_true] at h
  obtain ⟨l, hl, h⟩ := bind_ok h
  obtain ⟨r, hr, h⟩ := bind_ok h
  exact ⟨getP_ok.1 ⟨l, getY3_eq y jp j s ▸ hl⟩, getP_ok.1 ⟨r, getY3_eq y jp _ s ▸ hr⟩⟩

/-- lookups of `keep_trains_order` for trains that may overtake -/
theorem coupling_lookups {ts : TrainSets} {y : OrderVars} {s j jp : Val}
    (hok : Oks (keepTrainsOrder s j jp y ts)) {sp : Val} {d : Dict Val (List (List Val))}
    (hprev : PrevOf ts j s sp) (hd : Dict.get? ts.Jd sp = some d) (hds : Dict.get? d s ≠ .none)
    (hg : ∀ gs, Dict.get? ts.Jtrack s = some gs → ∃ g ∈ gs, j ∈ g ∧ jp ∈ g ∧ j ≠ jp)
    (hmo : MayOvertake ts j jp s) (hen : EnterTogether ts j jp s) :
    (findP y (inKey, j, jp, s) ≠ .none ∨ findP y (inKey, jp, j, s) ≠ .none) ∧
    findP y (j, jp, oneStation, s) ≠ .none := by
  obtain ⟨cs, hok⟩ := hok
  unfold keepTrainsOrder at hok
  obtain ⟨path, hpath, hok⟩ := bind_ok hok
  obtain ⟨sp', hsp, hok⟩ := bind_ok hok
  have := prevOf_unique (prevOf_iff.2 ⟨path, hpath, hsp⟩) hprev
  subst this
  have hh : Dict.has d s = true := by
    unfold Dict.has; cases hx : Dict.get? d s with
    | none => exact absurd hx hds
    | some _ => rfl
  simp only [hd, hh, if_true] at hok
  obtain ⟨g, hgg, hok⟩ := bind_ok hok
  rw [Dict.at!_ok] at hgg
  rw [if_pos (occursAsPair_iff.2 (hg g hgg))] at hok
  obtain ⟨mo, hm, hok⟩ := bind_ok hok
  rw [(canMO_iff hm).2 hmo] at hok
  simp only [Bool.not_true, Bool.false_eq_true, if_false, entering_iff.2 hen, if_true] at hok
  obtain ⟨l, hl, hok⟩ := bind_ok hok
  obtain ⟨r, hr, hok⟩ := bind_ok hok
  refine ⟨getP_ok.1 ⟨l, getY4in_eq y inKey j jp s ▸ hl⟩, ?_⟩
  rw [at4_ok] at hr
  show find4 y j jp oneStation s ≠ .none
  rw [hr]; simp

/-- an order variable exists, in one of the two orientations -/
def Exists3 (y : OrderVars) (j jp s : Val) : Prop :=
  findP y (j, jp, oneStation, s) ≠ .none ∨ findP y (jp, j, oneStation, s) ≠ .none
def Exists4 (y : OrderVars) (j jp s sp : Val) : Prop :=
  findP y (j, jp, s, sp) ≠ .none ∨ findP y (jp, j, sp, s) ≠ .none
def ExistsIn (y : OrderVars) (j jp s : Val) : Prop :=
  findP y (inKey, j, jp, s) ≠ .none ∨ findP y (inKey, jp, j, s) ≠ .none

/-- two families of precedences agree wherever an order variable exists -/
structure Agree (y : OrderVars) (G3 F3 : Val → Val → Val → Prop)
    (G4 F4 : Val → Val → Val → Val → Prop) (GI FI : Val → Val → Val → Prop) : Prop where
  a3 : ∀ j jp s, j ≠ inKey → jp ≠ inKey → j ≠ jp → Exists3 y j jp s → (G3 j jp s ↔ F3 j jp s)
  a4 : ∀ j jp s sp, j ≠ inKey → jp ≠ inKey → j ≠ jp → s ≠ oneStation → sp ≠ oneStation →
    Exists4 y j jp s sp → (G4 j jp s sp ↔ F4 j jp s sp)
  aI : ∀ j jp s, j ≠ inKey → jp ≠ inKey → j ≠ jp → ExistsIn y j jp s → (GI j jp s ↔ FI j jp s)

theorem Agree.symm {y : OrderVars} {G3 F3 : Val → Val → Val → Prop}
    {G4 F4 : Val → Val → Val → Val → Prop} {GI FI : Val → Val → Val → Prop}
    (h : Agree y G3 F3 G4 F4 GI FI) : Agree y F3 G3 F4 G4 FI GI :=
  ⟨fun j jp s h1 h2 h3 h4 => (h.a3 j jp s h1 h2 h3 h4).symm,
    fun j jp s sp h1 h2 h3 h4 h5 h6 => (h.a4 j jp s sp h1 h2 h3 h4 h5 h6).symm,
    fun j jp s h1 h2 h3 h4 => (h.aI j jp s h1 h2 h3 h4).symm⟩

theorem departure_of_moment {ts : TrainSets} {tt : Timetable} {D : Val → Val → ℚ → Prop}
    {s j p : Val} {a : String} {m : ℚ} {pair : Dict Val String} (ha : Dict.get? pair j = some a)
    (h : SwitchMoment ts tt D s j a p m) : departureStation4switches s j pair ts = .ok p := by
  unfold departureStation4switches
  rw [Dict.at!_ok.2 ha]
  rcases h with ⟨rfl, rfl, _⟩ | ⟨rfl, h, _⟩
  · rfl
  · obtain ⟨path, h1, h2⟩ := prevOf_iff.1 h
    simp only [bind, Except.bind, String.reduceEq, if_false, if_true, h1, h2]

/-- the rules except the one for switches -/
structure OtherRules (ts : TrainSets) (tt : Timetable) (D : Val → Val → ℚ → Prop) (y : OrderVars)
    (F3 : Val → Val → Val → Prop) (F4 : Val → Val → Val → Val → Prop)
    (FI : Val → Val → Val → Prop) : Prop where
  headway : HeadwayRule ts tt D F3
  stay : StayRule ts tt D
  singleLine : SingleLineRule ts tt D F4
  track : TrackRule ts tt D y F3 FI
  circulation : CirculationRule ts tt D

/-- they only depend on precedences for which there are variables -/
theorem other_agree {ts : TrainSets} {tt : Timetable} {dmax : ℚ} {cat : Cat} {b : Built}
    (P : Parts ts tt dmax cat b) (hn : NamesOK ts) (hw : WellFormed ts)
    (hround : ∀ e ∈ ts.Jround, ∀ p ∈ e.2, p.2 ≠ inKey) {D : Val → Val → ℚ → Prop}
    {G3 F3 : Val → Val → Val → Prop} {G4 F4 : Val → Val → Val → Val → Prop}
    {GI FI : Val → Val → Val → Prop} (A : Agree b.y G3 F3 G4 F4 GI FI)
    (hr : OtherRules ts tt D b.y F3 F4 FI) : OtherRules ts tt D b.y G3 G4 GI := by
  refine ⟨?_, hr.stay, ?_, ?_, hr.circulation⟩
  · intro e he e2 he2 g hg j hj jp hjp hne hF
    have n := hn.names.jd e he e2 he2 g hg
    refine hr.headway e he e2 he2 g hg j hj jp hjp hne
      ((A.a3 _ _ _ (n j hj) (n jp hjp) hne ?_).1 hF)
    rcases pairs_of_mem hj hjp hne with h | h
    · exact hasY3_jd P.hy he he2 hg h
    · exact (hasY3_jd P.hy he he2 hg h).symm
  · intro e he p hp hss
    obtain ⟨n1, n2, n3⟩ := hn.names.josingle e he
    have hne := hw.josingle e he p hp
    obtain ⟨h1, h2⟩ := hr.singleLine e he p hp hss
    have hex := hasY4_josingle P.hy he hp
    exact ⟨fun hF => h1 ((A.a4 _ _ _ _ (n3 p hp).1 (n3 p hp).2 hne n1 n2 hex).1 hF),
      fun hF => h2 ((A.a4 _ _ _ _ (n3 p hp).2 (n3 p hp).1 (Ne.symm hne) n2 n1 hex.symm).1 hF)⟩
  · intro e he g hg j jp hs hss
    have hp := mem_pairs_iff.2 hs
    have hne := pairs_ne (hw.jtrack e he g hg) hp
    obtain ⟨m1, m2⟩ := sublist_mem hs
    have n1 := hn.names.jtrack e he g hg j m1
    have n2 := hn.names.jtrack e he g hg jp m2
    have ho := track_oks P.o4 e he g hg _ hp hss
    have hex : Exists3 b.y j jp e.1 := hasY3_jtrack P.hy he hg hp
    have one : ∀ {j jp : Val}, j ≠ inKey → jp ≠ inKey → j ≠ jp → ¬ SameStock ts j jp →
        Exists3 b.y j jp e.1 →
        Oks (trainsOrderAtS e.1 j jp tt b.dv b.y ts dmax) →
        TrackOne ts tt D F3 e.1 j jp → TrackOne ts tt D G3 e.1 j jp := by
      rintro j jp n1 n2 hne hss hex hok ⟨h1, h2⟩
      refine ⟨fun jrr hc => ?_, fun hc hF => h2 hc ((A.a3 _ _ _ n1 n2 hne hex).1 hF)⟩
      obtain ⟨l1, l2⟩ := continued_lookups hok hc
      obtain ⟨ps, hps, hfind, hnn⟩ := hc
      have hmem : (j, jrr) ∈ ps := List.mem_of_find?_eq_some hfind
      have hmem' := Dict.mem_of_get? hps
      have n3 : jrr ≠ inKey := hround _ hmem' _ hmem
      have hne' : jp ≠ jrr := by
        rintro rfl
        exact hss ⟨hne, _, hmem', .inl hmem⟩
      rw [A.a3 _ _ _ n2 n1 (Ne.symm hne) l1, A.a3 _ _ _ n2 n3 hne' l2]
      exact h1 jrr ⟨ps, hps, hfind, hnn⟩
    obtain ⟨r1, r2⟩ := hr.track e he g hg j jp hs hss
    refine ⟨fun hx => ?_, fun hx => ?_⟩
    · obtain ⟨o1, o2⟩ := (track_first (σ := fun _ => 0) ho.1).2 hx
      obtain ⟨c1, c2⟩ := r1 hx
      refine ⟨?_, one n2 n1 (Ne.symm hne) (fun h => hss (sameStock_symm h)) hex.symm o2 c2⟩
      intro sp d h1 h2 h3 h4
      obtain ⟨k1, k2⟩ := c1 sp d h1 h2 h3 h4
      refine ⟨?_, ?_⟩
      · intro hmo ⟨v, hv1⟩ ⟨v', hv1'⟩
        have e2 : findP b.y (j, jp, oneStation, sp) ≠ .none := by
          rw [at4_ok] at hv1'; show find4 _ _ _ _ _ ≠ _; rw [hv1']; simp
        rw [A.a3 _ _ _ n1 n2 hne hex, A.a3 _ _ _ n1 n2 hne (.inl e2)]
        exact k1 hmo ⟨v, hv1⟩ ⟨v', hv1'⟩
      · intro hmo hen
        obtain ⟨l1, l2⟩ := coupling_lookups o1 h1 h2 h3 h4 hmo hen
        rw [A.aI _ _ _ n1 n2 hne l1, A.a3 _ _ _ n1 n2 hne hex]
        exact k2 hmo hen
    · exact one n1 n2 hne hss hex ((track_second (σ := fun _ => 0) ho.2).2 hx) (r2 hx)

/-- which train passes switches first only depends on precedences for which there are variables -/
theorem switchFirst_agree {ts : TrainSets} {tt : Timetable} {dmax : ℚ} {cat : Cat} {b : Built}
    (P : Parts ts tt dmax cat b) (hn : NamesOK ts) (hw : WellFormed ts) {D : Val → Val → ℚ → Prop}
    {G3 F3 : Val → Val → Val → Prop} {G4 F4 : Val → Val → Val → Val → Prop}
    {GI FI : Val → Val → Val → Prop} (A : Agree b.y G3 F3 G4 F4 GI FI)
    {e : Val × List (Dict Val String)} (he : e ∈ ts.Jswitch) {pair : Dict Val String}
    (hpair : pair ∈ e.2) {j jp : Val} {a c : String} (heq : pair = [(j, a), (jp, c)]) {p pp : Val}
    {m mp : ℚ} (hm : SwitchMoment ts tt D e.1 j a p m) (hmp : SwitchMoment ts tt D e.1 jp c pp mp) :
    (SwitchFirst ts G3 G4 GI e.1 j p jp pp → SwitchFirst ts F3 F4 FI e.1 j p jp pp) ∧
    (SwitchFirst ts G3 G4 GI e.1 jp pp j p → SwitchFirst ts F3 F4 FI e.1 jp pp j p) := by
  obtain ⟨u, nt⟩ := hn.names.jswitch e he
  have n1 := nt pair hpair (j, a) (by rw [heq]; simp)
  have n2 := nt pair hpair (jp, c) (by rw [heq]; simp)
  have hne : j ≠ jp := by
    have := (hw.jswitch e he pair hpair).1
    rw [heq] at this
    simp only [Dict.keys, List.map_cons, List.map_nil, List.nodup_cons, List.mem_singleton] at this
    exact this.1
  have d1 := departure_of_moment (pair := pair) (by rw [heq]; simp [Dict.get?]) hm
  have d2 := departure_of_moment (pair := pair) (by rw [heq]; simp [Dict.get?, hne]) hmp
  have u1 : p ≠ oneStation := departureStation_U hn.names u d1
  have u2 : pp ≠ oneStation := departureStation_U hn.names u d2
  have hex := has_jswitch P.hy he hpair heq d1 d2
  have ex1 : p = pp → p ≠ e.1 → MayOvertake ts j jp e.1 → ExistsIn b.y j jp e.1 := by
    intro x1 x2 x3
    rcases hex with ⟨_, _, _, h⟩ | ⟨_, h, _⟩ | ⟨h, _⟩ | ⟨h, _⟩
    · exact h
    · rcases h with h | h
      · exact absurd h x2
      · have := (canMO_iff h).2 x3; cases this
    · exact absurd x1 h
    · exact absurd x1 h
  have ex2 : p = pp → (p = e.1 ∨ ¬ MayOvertake ts j jp e.1) → Exists3 b.y j jp p := by
    intro x1 x2
    rcases hex with ⟨_, h3, h4, _⟩ | ⟨_, _, h⟩ | ⟨h, _⟩ | ⟨h, _⟩
    · rcases x2 with x2 | x2
      · exact absurd x2 h3
      · exact absurd ((canMO_iff h4).1 rfl) x2
    · exact h
    · exact absurd x1 h
    · exact absurd x1 h
  have ex3 : p ≠ pp → (e.1 = p ∨ e.1 = pp) → Exists4 b.y j jp p pp := by
    intro x1 x2
    rcases hex with ⟨h, _⟩ | ⟨h, _⟩ | ⟨_, _, h⟩ | ⟨_, h3, h4, _⟩
    · exact absurd h x1
    · exact absurd h x1
    · exact h
    · exact absurd x2 (by tauto)
  have ex4 : p ≠ pp → e.1 ≠ p → e.1 ≠ pp → ExistsIn b.y j jp e.1 := by
    intro x1 x2 x3
    rcases hex with ⟨h, _⟩ | ⟨h, _⟩ | ⟨_, h, _⟩ | ⟨_, _, _, h⟩
    · exact absurd h x1
    · exact absurd h x1
    · exact absurd h (by tauto)
    · exact h
  refine ⟨fun h => ?_, fun h => ?_⟩
  · rcases h with ⟨a1, a2, a3, a4⟩ | ⟨a1, a2, a3⟩ | ⟨a1, a2, a3⟩ | ⟨a1, a2, a3, a4⟩
    · exact .inl ⟨a1, a2, a3, (A.aI _ _ _ n1 n2 hne (ex1 a1 a2 a3)).1 a4⟩
    · exact .inr (.inl ⟨a1, a2, (A.a3 _ _ _ n1 n2 hne (ex2 a1 a2)).1 a3⟩)
    · exact .inr (.inr (.inl ⟨a1, a2, (A.a4 _ _ _ _ n1 n2 hne u1 u2 (ex3 a1 a2)).1 a3⟩))
    · exact .inr (.inr (.inr ⟨a1, a2, a3, (A.aI _ _ _ n1 n2 hne (ex4 a1 a2 a3)).1 a4⟩))
  · rcases h with ⟨a1, a2, a3, a4⟩ | ⟨a1, a2, a3⟩ | ⟨a1, a2, a3⟩ | ⟨a1, a2, a3, a4⟩
    · exact .inl ⟨a1, a2, a3, (A.aI _ _ _ n2 n1 (Ne.symm hne)
        (ex1 a1.symm (a1 ▸ a2) (mayOvertake_symm a3)).symm).1 a4⟩
    · have x2 : p = e.1 ∨ ¬ MayOvertake ts j jp e.1 := by
        rw [← a1]; exact a2.imp id fun h hm => h (mayOvertake_symm hm)
      have x3 : Exists3 b.y jp j pp := by rw [a1]; exact (ex2 a1.symm x2).symm
      exact .inr (.inl ⟨a1, a2, (A.a3 _ _ _ n2 n1 (Ne.symm hne) x3).1 a3⟩)
    · exact .inr (.inr (.inl ⟨a1, a2, (A.a4 _ _ _ _ n2 n1 (Ne.symm hne) u2 u1
        (ex3 (Ne.symm a1) a2.symm).symm).1 a3⟩))
    · exact .inr (.inr (.inr ⟨a1, a2, a3, (A.aI _ _ _ n2 n1 (Ne.symm hne)
        (ex4 (Ne.symm a1) a3 a2).symm).1 a4⟩))

/-- the rules only depend on precedences for which there are variables -/
theorem rules_agree {ts : TrainSets} {tt : Timetable} {dmax : ℚ} {cat : Cat} {b : Built}
    (P : Parts ts tt dmax cat b) (hn : NamesOK ts) (hw : WellFormed ts)
    (hround : ∀ e ∈ ts.Jround, ∀ p ∈ e.2, p.2 ≠ inKey) {D : Val → Val → ℚ → Prop}
    {G3 F3 : Val → Val → Val → Prop} {G4 F4 : Val → Val → Val → Val → Prop}
    {GI FI : Val → Val → Val → Prop} (A : Agree b.y G3 F3 G4 F4 GI FI)
    (hr : AllRules ts tt D b.y F3 F4 FI) : AllRules ts tt D b.y G3 G4 GI := by
  obtain ⟨h1, h2, h3, h4, h5⟩ := other_agree P hn hw hround A
    ⟨hr.headway, hr.stay, hr.singleLine, hr.track, hr.circulation⟩
  refine ⟨h1, h2, h3, h4, h5, ?_⟩
  intro e he pair hpair j a jp c heq hss p m pp mp r hm hmp hres
  obtain ⟨h1, h2⟩ := hr.switch e he pair hpair j a jp c heq hss p m pp mp r hm hmp hres
  obtain ⟨k1, k2⟩ := switchFirst_agree P hn hw A he hpair heq hm hmp
  exact ⟨fun h => h1 (k1 h), fun h => h2 (k2 h)⟩

theorem assign_agree {ts : TrainSets} {tt : Timetable} {dmax : ℚ} {cat : Cat} {b : Built}
    (P : Parts ts tt dmax cat b) {π : Plan} (hv : π.Valid ts dmax cat) :
    Agree b.y (First3 b.y π.assign) π.F3 (First4 b.y π.assign) π.F4 (FirstIn b.y π.assign) π.FI := by
  refine ⟨fun j jp s h1 h2 h3 h4 => assign_first3_iff P hv h1 h2 h3 h4, ?_,
    fun j jp s _ _ h3 h4 => assign_firstIn_iff P hv h3 h4⟩
  intro j jp s sp h1 h2 h3 h4 h5 h6
  refine ⟨assign_first4 P hv h1 h2 h4 h5 (fun h => h3 h.1), fun h => ?_⟩
  rcases firstP_total P (assign_admissible P hv) h6 with h' | h'
  · exact first4_iff.2 h'
  · exact absurd (assign_first4 P hv h2 h1 h5 h4 (fun h => h3 h.1.symm) (first4_iff.2 h'))
      ((hv.one4 j jp s sp (fun h => h3 h.1)).1 h)

/-- a plan that keeps the rules satisfies the problem -/
theorem plan_satisfies {ts : TrainSets} {tt : Timetable} {dmax : ℚ} {cat : Cat} {b : Built}
    (hb : buildProblem ts tt dmax cat = .ok b) (hn : NamesOK ts) (hw : WellFormed ts)
    (hround : ∀ e ∈ ts.Jround, ∀ p ∈ e.2, p.2 ≠ inKey) {π : Plan} (hv : π.Valid ts dmax cat)
    (hr : AllRules ts tt (π.D ts tt) b.y π.F3 π.F4 π.FI) :
    Satisfies b.prob π.assign := by
  have P := parts hb
  rw [satisfies_iff_rules hb hn hw (assign_admissible P hv)]
  have hD : Departs ts tt b.dv π.assign = π.D ts tt := by
    funext j s t; exact propext (assign_departs P j s t)
  rw [hD]
  exact rules_agree P hn hw hround (assign_agree P hv) hr

/-! ## The plan of an assignment -/

/-- some strict total order on names -/
def valLt : Val → Val → Prop
  | .none, .int _ => True
  | .none, .str _ => True
  | .int a, .int b => a < b
  | .int _, .str _ => True
  | .str a, .str b => a < b
  | _, _ => False

open Classical in
/-- delays and precedences of an assignment; precedences without a variable are decided by name -/
noncomputable def planOf (b : Built) (dmax : ℚ) (cat : Cat) (σ : LpVar → ℚ) : Plan where
  delay j s := σ (dVar j s dmax cat)
  F3 j jp s := if j ≠ inKey ∧ jp ≠ inKey ∧ Exists3 b.y j jp s then First3 b.y σ j jp s
    else valLt j jp
  F4 j jp s sp := if j ≠ inKey ∧ jp ≠ inKey ∧ s ≠ oneStation ∧ sp ≠ oneStation ∧
      Exists4 b.y j jp s sp then First4 b.y σ j jp s sp
    else valLt j jp ∨ (j = jp ∧ valLt s sp)
  FI j jp s := if ExistsIn b.y j jp s then FirstIn b.y σ j jp s else valLt j jp

theorem valLt_iff {a b : Val} (h : a ≠ b) : valLt a b ↔ ¬ valLt b a := by
  cases a <;> cases b <;> simp only [valLt, not_true_eq_false, not_false_eq_true, iff_self] at h ⊢
  · exact absurd rfl h
  · rename_i m n
    have : m ≠ n := fun h' => h (h' ▸ rfl)
    omega
  · rename_i m n
    have : m ≠ n := fun h' => h (h' ▸ rfl)
    rw [not_lt]
    exact ⟨le_of_lt, fun h => lt_of_le_of_ne h this⟩

theorem valLt_irrefl (a : Val) : ¬ valLt a a := by
  cases a <;> simp [valLt]

theorem firstP_iff_not {ts : TrainSets} {tt : Timetable} {dmax : ℚ} {cat : Cat} {b : Built}
    (P : Parts ts tt dmax cat b) {σ : LpVar → ℚ} (ha : Admissible b σ) {p q : OPath}
    (hnb : ¬ (findP b.y p ≠ .none ∧ findP b.y q ≠ .none))
    (hex : findP b.y p ≠ .none ∨ findP b.y q ≠ .none) :
    FirstP b.y σ p q ↔ ¬ FirstP b.y σ q p := by
  constructor
  · rintro (⟨v, h1, h2⟩ | ⟨v, h1, h2⟩) (⟨w, h3, h4⟩ | ⟨w, h3, h4⟩)
    · exact hnb ⟨by rw [h1]; simp, by rw [h3]; simp⟩
    · rw [h1] at h3; cases h3; rw [h2] at h4; norm_num at h4
    · rw [h1] at h3; cases h3; rw [h2] at h4; norm_num at h4
    · exact hnb ⟨by rw [h3]; simp, by rw [h1]; simp⟩
  · intro h
    exact (firstP_total P ha hex).resolve_right h

theorem planOf_valid {ts : TrainSets} {tt : Timetable} {dmax : ℚ} {cat : Cat} {b : Built}
    (P : Parts ts tt dmax cat b) (hn : NamesOK ts) {σ : LpVar → ℚ} (ha : Admissible b σ) :
    (planOf b dmax cat σ).Valid ts dmax cat := by
  have hd : ∀ {j s : Val}, HasDelay ts j s → InDomain (dVar j s dmax cat) (σ (dVar j s dmax cat)) :=
    fun h => ha.delays _ _ _ (delayAt_ok.2 ((delayVariables_find P.hdv).2 ⟨h, rfl⟩))
  refine ⟨fun j s h => (hd h).1, fun j s h => (hd h).2.1, fun hc j s h => (hd h).2.2 hc, ?_, ?_, ?_⟩
  · intro j jp s hne
    simp only [planOf]
    by_cases h : j ≠ inKey ∧ jp ≠ inKey ∧ Exists3 b.y j jp s
    · rw [if_pos h, if_pos ⟨h.2.1, h.1, h.2.2.symm⟩, first3_iff, first3_iff]
      exact firstP_iff_not P ha (noBoth3 hn P.hy s h.1 hne) h.2.2
    · rw [if_neg h, if_neg (fun h' => h ⟨h'.2.1, h'.1, h'.2.2.symm⟩)]
      exact valLt_iff hne
  · intro j jp s sp hne
    simp only [planOf]
    by_cases h : j ≠ inKey ∧ jp ≠ inKey ∧ s ≠ oneStation ∧ sp ≠ oneStation ∧ Exists4 b.y j jp s sp
    · rw [if_pos h, if_pos ⟨h.2.1, h.1, h.2.2.2.1, h.2.2.1, h.2.2.2.2.symm⟩, first4_iff, first4_iff]
      exact firstP_iff_not P ha (noBoth4 hn P.hy h.1 h.2.2.1 hne) h.2.2.2.2
    · rw [if_neg h, if_neg (fun h' => h ⟨h'.2.1, h'.1, h'.2.2.2.1, h'.2.2.1, h'.2.2.2.2.symm⟩)]
      by_cases hj : j = jp
      · subst hj
        have hs : s ≠ sp := fun h => hne ⟨rfl, h⟩
        simp only [valLt_irrefl, false_or, true_and]
        exact valLt_iff hs
      · simp only [hj, Ne.symm hj, false_and, or_false]
        exact valLt_iff hj
  · intro j jp s hne
    simp only [planOf]
    by_cases h : ExistsIn b.y j jp s
    · rw [if_pos h, if_pos (show ExistsIn b.y jp j s from h.symm), firstIn_iff, firstIn_iff]
      exact firstP_iff_not P ha (noBothIn hn P.hy s hne) h
    · rw [if_neg h, if_neg (fun h' : ExistsIn b.y jp j s => h h'.symm)]
      exact valLt_iff hne

theorem planOf_agree (b : Built) (dmax : ℚ) (cat : Cat) (σ : LpVar → ℚ) :
    Agree b.y (First3 b.y σ) (planOf b dmax cat σ).F3 (First4 b.y σ) (planOf b dmax cat σ).F4
      (FirstIn b.y σ) (planOf b dmax cat σ).FI := by
  refine ⟨?_, ?_, ?_⟩
  · intro j jp s h1 h2 _ h4
    simp only [planOf]; rw [if_pos ⟨h1, h2, h4⟩]
  · intro j jp s sp h1 h2 _ h4 h5 h6
    simp only [planOf]; rw [if_pos ⟨h1, h2, h4, h5, h6⟩]
  · intro j jp s _ _ _ h4
    simp only [planOf]; rw [if_pos h4]

/-- the plan of a feasible assignment keeps the rules -/
theorem planOf_rules {ts : TrainSets} {tt : Timetable} {dmax : ℚ} {cat : Cat} {b : Built}
    (hb : buildProblem ts tt dmax cat = .ok b) (hn : NamesOK ts) (hw : WellFormed ts)
    (hround : ∀ e ∈ ts.Jround, ∀ p ∈ e.2, p.2 ≠ inKey) {σ : LpVar → ℚ} (hf : Feasible b σ) :
    (∀ j s t, (planOf b dmax cat σ).D ts tt j s t ↔ Departs ts tt b.dv σ j s t) ∧
    AllRules ts tt ((planOf b dmax cat σ).D ts tt) b.y (planOf b dmax cat σ).F3
      (planOf b dmax cat σ).F4 (planOf b dmax cat σ).FI := by
  have P := parts hb
  have hD : ∀ j s t, (planOf b dmax cat σ).D ts tt j s t ↔ Departs ts tt b.dv σ j s t := by
    intro j s t
    unfold Plan.D Departs
    constructor
    · rintro ⟨h, e, he, rfl⟩
      exact ⟨e, _, he, delayAt_ok.2 ((delayVariables_find P.hdv).2 ⟨h, rfl⟩), rfl⟩
    · rintro ⟨e, v, he, hv, rfl⟩
      rw [delayAt_ok, delayVariables_find P.hdv] at hv
      obtain ⟨h, rfl⟩ := hv
      exact ⟨h, e, he, rfl⟩
  refine ⟨hD, ?_⟩
  have hD' : (planOf b dmax cat σ).D ts tt = Departs ts tt b.dv σ := by
    funext j s t; exact propext (hD j s t)
  rw [hD']
  exact rules_agree P hn hw hround (planOf_agree b dmax cat σ).symm
    ((satisfies_iff_rules hb hn hw hf.adm).1 hf.sat)

end Verif
