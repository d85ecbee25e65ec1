import Verif.Props.Equiv
import Verif.Props.Rules2

/-!
# Properties of the order variables: C11, C12, C13
-/

namespace Verif

variable {ts : TrainSets} {tt : Timetable} {dmax : ℚ} {cat : Cat} {b : Built} {σ : LpVar → ℚ}

/-! ## C11 -/

/-- for clash-free names: not both orientations of a precedence exist, and if one exists both
readings can be made and add up to one -/
def ReadingsAgree (y : OrderVars) : Prop :=
  (∀ j jp s, j ≠ inKey → jp ≠ inKey → j ≠ jp →
    ¬ ((∃ v, at4 y j jp oneStation s = .ok v) ∧ ∃ v, at4 y jp j oneStation s = .ok v) ∧
    ((∃ v, at4 y j jp oneStation s = .ok v) → ∃ e f, getY3 y j jp s = .ok e ∧
      getY3 y jp j s = .ok f ∧ ∀ σ, e.eval σ + f.eval σ = 1)) ∧
  (∀ j jp s sp, j ≠ inKey → jp ≠ inKey → s ≠ oneStation → sp ≠ oneStation → ¬ (j = jp ∧ s = sp) →
    ¬ ((∃ v, at4 y j jp s sp = .ok v) ∧ ∃ v, at4 y jp j sp s = .ok v) ∧
    ((∃ v, at4 y j jp s sp = .ok v) → ∃ e f, getY4singleline y j jp s sp = .ok e ∧
      getY4singleline y jp j sp s = .ok f ∧ ∀ σ, e.eval σ + f.eval σ = 1)) ∧
  (∀ j jp s, j ≠ jp →
    ¬ ((∃ v, at4 y inKey j jp s = .ok v) ∧ ∃ v, at4 y inKey jp j s = .ok v) ∧
    ((∃ v, at4 y inKey j jp s = .ok v) → ∃ e f, getY4in y inKey j jp s = .ok e ∧
      getY4in y inKey jp j s = .ok f ∧ ∀ σ, e.eval σ + f.eval σ = 1))

theorem findP_ne_none {y : OrderVars} {p : OPath} :
    (∃ v, at4 y p.1 p.2.1 p.2.2.1 p.2.2.2 = .ok v) ↔ findP y p ≠ .none := by
  simp only [at4_ok]
  unfold findP
  cases find4 y p.1 p.2.1 p.2.2.1 p.2.2.2 <;> simp

theorem readings_of_steps {y : OrderVars} (h : Steps (· ≠ inKey) (· ≠ oneStation) [] y) :
    ReadingsAgree y := by
  have key : ∀ {p q : OPath}, swapP p = q → q ≠ p →
      ¬ (findP y p ≠ .none ∧ findP y q ≠ .none) ∧
      (findP y p ≠ .none → ∃ e f, getP y p q = .ok e ∧ getP y q p = .ok f ∧
        ∀ σ, e.eval σ + f.eval σ = 1) := by
    intro p q hq hne
    have hnb : ¬ (findP y p ≠ .none ∧ findP y q ≠ .none) := by
      rintro ⟨h1, h2⟩
      exact h2 (hq ▸ (steps_noBoth h p h1).2 (hq ▸ hne))
    refine ⟨hnb, fun hp => ?_⟩
    obtain ⟨e, he⟩ := getP_ok.2 (.inl hp : findP y p ≠ .none ∨ findP y q ≠ .none)
    obtain ⟨f, hf⟩ := getP_ok.2 (.inr hp : findP y q ≠ .none ∨ findP y p ≠ .none)
    exact ⟨e, f, he, hf, getP_add hnb he hf⟩
  refine ⟨?_, ?_, ?_⟩
  · intro j jp s hj hjp hne
    have := key (p := (j, jp, oneStation, s)) (q := (jp, j, oneStation, s))
      (by simp [swapP, hj]) (by simp [Ne.symm hne])
    rw [← findP_ne_none, ← findP_ne_none] at this
    exact this
  · intro j jp s sp hj hjp hs hsp hne
    have := key (p := (j, jp, s, sp)) (q := (jp, j, sp, s))
      (by simp [swapP, hj, hs]) (by simp only [ne_eq, Prod.mk.injEq]; tauto)
    rw [← findP_ne_none, ← findP_ne_none] at this
    exact this
  · intro j jp s hne
    have := key (p := (inKey, j, jp, s)) (q := (inKey, jp, j, s))
      (by simp [swapP]) (by simp [Ne.symm hne])
    rw [← findP_ne_none, ← findP_ne_none] at this
    exact this

/-- **C11.** After `order_variables` no precedence exists in both orientations, and the two
readings of each add up to one. -/
theorem C11_readings {y : OrderVars} (hy : orderVariables ts = .ok y) (hn : NamesOK ts) :
    ReadingsAgree y :=
  readings_of_steps (orderVariables_steps hn.names hy)

/-- a call of one of the update functions -/
inductive UpdateCall
  | y3 (j jp s : Val)
  | y4 (j jp s sp : Val)
  | y4in (j jp s : Val)

def UpdateCall.run (y : OrderVars) : UpdateCall → Py OrderVars
  | .y3 j jp s => updateY3 y j jp s
  | .y4 j jp s sp => updateY4 y j jp s sp
  | .y4in j jp s => updateY4in y inKey j jp s

/-- the names in the call do not clash with the literal keys -/
def UpdateCall.NamesOK : UpdateCall → Prop
  | .y3 j jp _ => j ≠ inKey ∧ jp ≠ inKey
  | .y4 j jp s sp => j ≠ inKey ∧ jp ≠ inKey ∧ s ≠ oneStation ∧ sp ≠ oneStation
  | .y4in j jp _ => j ≠ inKey ∧ jp ≠ inKey

theorem UpdateCall.ok (y : OrderVars) (c : UpdateCall) : ∃ y', c.run y = .ok y' := by
  cases c with
  | y3 j jp s => obtain ⟨y', h, _⟩ := addOrder_spec y (j, jp, oneStation, s) (jp, j, oneStation, s) (yVar j jp s); exact ⟨y', h⟩
  | y4 j jp s sp => obtain ⟨y', h, _⟩ := addOrder_spec y (j, jp, s, sp) (jp, j, sp, s) (zVar j jp s sp); exact ⟨y', h⟩
  | y4in j jp s => obtain ⟨y', h, _⟩ := addOrder_spec y (inKey, j, jp, s) (inKey, jp, j, s) (zVar inKey j jp s); exact ⟨y', h⟩

/-- **C11 for any history.** Any sequence of calls of the update functions succeeds and leaves a
dictionary with that property. -/
theorem C11_history (calls : List UpdateCall) (hn : ∀ c ∈ calls, c.NamesOK) :
    ∃ y, loop calls UpdateCall.run [] = .ok y ∧ ReadingsAgree y := by
  have total : ∀ (calls : List UpdateCall) (y : OrderVars),
      ∃ y', loop calls UpdateCall.run y = .ok y' := by
    intro calls
    induction calls with
    | nil => intro y; exact ⟨y, rfl⟩
    | cons c calls ih =>
      intro y
      obtain ⟨y', h⟩ := c.ok y
      simp only [loop, h]
      exact ih y'
  obtain ⟨y, hy⟩ := total calls []
  refine ⟨y, hy, readings_of_steps (loop_steps hy fun c hc a b hab => ?_)⟩
  have h := hn c hc
  cases c with
  | y3 j jp s => exact updateY3_steps h.1 h.2 hab
  | y4 j jp s sp => exact updateY4_steps h.1 h.2.1 h.2.2.1 h.2.2.2 hab
  | y4in j jp s => exact updateY4in_steps h.1 h.2 hab

/-- the hypotheses of C11 are met and a precedence exists -/
example : NamesOK Small.ts ∧ ∃ y, orderVariables Small.ts = .ok y ∧
    ∃ v, at4 y (.int 1) (.int 2) oneStation (.str "A") = .ok v := by
  refine ⟨Small.namesOK, ?_⟩
  have : (match orderVariables Small.ts with
    | .ok y => (match at4 y (.int 1) (.int 2) oneStation (.str "A") with
      | .ok _ => true
      | .error _ => false)
    | .error _ => false) = true := by decide +kernel
  split at this
  · rename_i y hy
    split at this
    · rename_i v hv; exact ⟨y, hy, v, hv⟩
    · cases this
  · cases this

/-! ## C12 -/

theorem canMO_symm {j jp s : Val} {mo : Bool} (h : canMOonLine j jp s ts = .ok mo) :
    canMOonLine jp j s ts = .ok mo := by
  have hmo := canMO_iff h
  suffices ∃ mo', canMOonLine jp j s ts = .ok mo' by
    obtain ⟨mo', h'⟩ := this
    have hmo' := canMO_iff h'
    have : mo = true ↔ mo' = true := hmo.trans (Iff.trans ⟨mayOvertake_symm, mayOvertake_symm⟩ hmo'.symm)
    rw [h', Bool.eq_iff_iff.2 this]
  unfold canMOonLine at h ⊢
  obtain ⟨pj, h1, h⟩ := bind_ok h
  obtain ⟨sp, h2, h⟩ := bind_ok h
  obtain ⟨pjp, h3, h⟩ := bind_ok h
  obtain ⟨spp, h4, h⟩ := bind_ok h
  simp only [h1, h2, h3, h4, bind, Except.bind]
  split
  · exact ⟨_, rfl⟩
  · rename_i h0
    rw [if_neg h0] at h
    split
    · exact ⟨_, rfl⟩
    · rename_i h5
      rw [if_neg (fun h' => h5 h'.symm)] at h
      split
      · exact ⟨_, rfl⟩
      · rename_i h6
        simp only [ne_eq, not_not] at h6
        subst h6
        rw [if_neg (by simp)] at h
        obtain ⟨d, hd, h⟩ := bind_ok h
        obtain ⟨g, hg, h⟩ := bind_ok h
        simp only [hd, hg]
        split <;> exact ⟨_, rfl⟩

/-- **C12.** After `order_variables` all lookups made by the constraint builders succeed. -/
theorem C12_lookups {y : OrderVars} (hy : orderVariables ts = .ok y) :
    (∀ e ∈ ts.Jd, ∀ e2 ∈ e.2, ∀ g ∈ e2.2, ∀ j ∈ g, ∀ jp ∈ g, j ≠ jp →
      ∃ x, getY3 y j jp e.1 = .ok x) ∧
    (∀ e ∈ ts.Josingle, ∀ p ∈ e.2, (∃ x, getY4singleline y p.1 p.2 e.1.1 e.1.2 = .ok x) ∧
      ∃ x, getY4singleline y p.2 p.1 e.1.2 e.1.1 = .ok x) ∧
    (∀ e ∈ ts.Jtrack, ∀ g ∈ e.2, ∀ j ∈ g, ∀ jp ∈ g, j ≠ jp → ∃ x, getY3 y j jp e.1 = .ok x) ∧
    (∀ e ∈ ts.Jswitch, ∀ pair ∈ e.2, ∀ j x jp z, pair = [(j, x), (jp, z)] → ∀ sp spp,
      departureStation4switches e.1 j pair ts = .ok sp →
      departureStation4switches e.1 jp pair ts = .ok spp →
      (∃ w, switchOrderVar e.1 j sp jp spp y ts = .ok w) ∧
      ∃ w, switchOrderVar e.1 jp spp j sp y ts = .ok w) := by
  refine ⟨?_, ?_, ?_, ?_⟩
  · intro e he e2 he2 g hg j hj jp hjp hne
    rw [getY3_eq]
    refine getP_ok.2 ?_
    rcases pairs_of_mem hj hjp hne with h | h
    · exact hasY3_jd hy he he2 hg h
    · exact (hasY3_jd hy he he2 hg h).symm
  · intro e he p hp
    have := hasY4_josingle hy he hp
    exact ⟨by rw [getY4_eq]; exact getP_ok.2 this, by rw [getY4_eq]; exact getP_ok.2 this.symm⟩
  · intro e he g hg j hj jp hjp hne
    rw [getY3_eq]
    refine getP_ok.2 ?_
    rcases pairs_of_mem hj hjp hne with h | h
    · exact hasY3_jtrack hy he hg h
    · exact (hasY3_jtrack hy he hg h).symm
  · intro e he pair hpair j x jp z heq sp spp hsp hspp
    have hex := has_jswitch hy he hpair heq hsp hspp
    unfold switchOrderVar
    rcases hex with ⟨h1, h2, h3, h4⟩ | ⟨h1, h2, h4⟩ | ⟨h1, h2, h4⟩ | ⟨h1, h2, h3, h4⟩
    · subst h1
      simp only [ne_eq, h2, not_false_eq_true, if_true, h3, bind, Except.bind]
      refine ⟨getP_ok.2 h4, ?_⟩
      simp only [canMO_symm h3, if_true]
      exact getP_ok.2 h4.symm
    · subst h1
      simp only [ne_eq, if_true]
      by_cases h : sp = e.1
      · simp only [h, not_true_eq_false, if_false]
        rw [h] at h4
        exact ⟨getP_ok.2 h4, getP_ok.2 h4.symm⟩
      · have h3 := h2.resolve_left h
        simp only [h, not_false_eq_true, if_true, h3, bind, Except.bind]
        refine ⟨getP_ok.2 h4, ?_⟩
        simp only [canMO_symm h3, Bool.false_eq_true, if_false]
        exact getP_ok.2 h4.symm
    · simp only [h1, Ne.symm h1, if_false, h2, h2.symm, if_true]
      exact ⟨getP_ok.2 h4, getP_ok.2 h4.symm⟩
    · simp only [h1, Ne.symm h1, h2, h3, if_false, or_self]
      exact ⟨getP_ok.2 h4, getP_ok.2 h4.symm⟩

/-- the hypotheses of C12 are met: the small example has groups of all kinds -/
example : ∃ y, orderVariables Small.ts = .ok y := by
  obtain ⟨b, hb, _⟩ := Small.feasible
  exact ⟨b.y, (parts hb).hy⟩

/-! ## C13 -/

/-- two trains come from `sp` on one track (they cannot overtake), use the same track of `s`, and
are not the same rolling stock -/
structure Following (ts : TrainSets) (j jp sp s : Val) : Prop where
  ne : j ≠ jp
  prev : PrevOf ts j s sp
  prev' : PrevOf ts jp s sp
  line : SameGroupJd ts j jp sp s
  track : ∃ gs, Dict.get? ts.Jtrack s = some gs ∧ ∃ g ∈ gs, j ∈ g ∧ jp ∈ g
  stock : ¬ SameStock ts j jp

/-- the full claim of C13: trains that cannot overtake leave `s` in the order in which they left
`sp`, unless one of them does not leave `s` -/
def OrderKept (ts : TrainSets) (tt : Timetable) (dv : DelayVars) (σ : LpVar → ℚ) : Prop :=
  ∀ j jp sp s, Following ts j jp sp s → ∀ t tp u up, Departs ts tt dv σ j sp t →
    Departs ts tt dv σ jp sp tp → Departs ts tt dv σ j s u → Departs ts tt dv σ jp s up →
    t < tp → u < up

/-- two trains on the line A → B, listed in one order for the line and in the other for the
station track -/
def exampleOvertake : TrainSets where
  skipStation := .none
  paths := [(.int 1, [.str "A", .str "B"]), (.int 2, [.str "A", .str "B"])]
  J := [.int 1, .int 2]
  Jd := [(.str "A", [(.str "B", [[.int 2, .int 1]])])]
  Josingle := []
  Jround := []
  Jtrack := [(.str "B", [[.int 1, .int 2]])]
  Jswitch := []
  addSwithes := .none

def exampleOvertakeTt : Timetable where
  tauPass := [("1_A_B", 10), ("2_A_B", 5)]
  tauHeadway := [("1_2_A_B", 2), ("2_1_A_B", 2)]
  tauStop := [("1_B", 1), ("2_B", 1)]
  tauPrep := []
  tauRes := some 1
  schedule := .none
  initialConditions := [("1_A", 0), ("2_A", 2)]
  penaltyWeights := [("1_B", 1)]

/-- precedences: 1 before 2 at A, 2 before 1 at B -/
def exampleOvertakeσ (v : LpVar) : ℚ :=
  match v.vid with
  | .delay _ _ => 0
  | .order _ _ _ _ => 0

/-- **C13 is false in general**: `keep_trains_order` reads `y[j][j']` in one orientation only. If
the two trains are listed in different orders for the line and for the station track, the orders are
not coupled: train 1 leaves A two minutes before train 2 on the same track and leaves B after it. -/
theorem C13_orderKept_false : ∃ ts tt dmax cat b σ, buildProblem ts tt dmax cat = .ok b ∧
    NamesOK ts ∧ WellFormed ts ∧ Feasible b σ ∧ ¬ OrderKept ts tt b.dv σ := by
  have : ∃ b, buildProblem exampleOvertake exampleOvertakeTt 10 .integer = .ok b ∧
      Feasible b exampleOvertakeσ :=
    feasible_of_check (by decide +kernel)
      (fun v j s hv => by unfold exampleOvertakeσ; rw [hv]; exact ⟨by norm_num, by norm_num, 0, by norm_num⟩)
      (fun v a b c d hv => by unfold exampleOvertakeσ; rw [hv]; exact .inl rfl)
  obtain ⟨b, hb, hf⟩ := this
  refine ⟨exampleOvertake, exampleOvertakeTt, 10, .integer, b, exampleOvertakeσ, hb, ?_, ?_, hf, ?_⟩
  · refine ⟨⟨?_, ?_, ?_, ?_, ?_, ?_⟩, ?_⟩ <;> decide
  · refine ⟨?_, ?_, ?_, ?_⟩ <;> decide
  · intro h
    have hfo : Following exampleOvertake (.int 1) (.int 2) (.str "A") (.str "B") := by
      refine ⟨by decide, ?_, ?_, ?_, ?_, ?_⟩
      · exact prevOf_iff.2 ⟨[.str "A", .str "B"], by decide, by decide⟩
      · exact prevOf_iff.2 ⟨[.str "A", .str "B"], by decide, by decide⟩
      · exact ⟨_, _, rfl, rfl, [.int 2, .int 1], by decide, by decide, by decide, by decide⟩
      · exact ⟨_, rfl, [.int 1, .int 2], by decide, by decide, by decide⟩
      · rintro ⟨_, e, he, _⟩; cases he
    have := h _ _ _ _ hfo 0 2 11 8 (departs_of_check hb (by decide +kernel))
      (departs_of_check hb (by decide +kernel)) (departs_of_check hb (by decide +kernel))
      (departs_of_check hb (by decide +kernel)) (by norm_num)
    norm_num at this

/-- no list of the data names `jp` before `j` at station `x` -/
structure ListedInOrder (ts : TrainSets) (j jp x : Val) : Prop where
  jd : ∀ e ∈ ts.Jd, e.1 = x → ∀ e2 ∈ e.2, ∀ g ∈ e2.2, ¬ [jp, j].Sublist g
  jtrack : ∀ e ∈ ts.Jtrack, e.1 = x → ∀ g ∈ e.2, ¬ [jp, j].Sublist g
  jswitch : ∀ e ∈ ts.Jswitch, ∀ pair ∈ e.2, Dict.keys pair ≠ [jp, j]

theorem addOrder_absent {y y' : OrderVars} {p q r : OPath} {v : LpVar} (hne : r ≠ p)
    (hr : findP y r = .none) (h : addOrder y p q v = .ok y') : findP y' r = .none := by
  obtain ⟨y'', h1, h2⟩ := addOrder_spec y p q v
  rw [h] at h1; cases h1
  rcases h2 with ⟨rfl, _⟩ | ⟨_, _, hall⟩
  · exact hr
  · rw [hall, if_neg hne]; exact hr

/-- the variable for `jp` before `j` at `x` is not created if no list names them in this order -/
theorem absent_of_listed {y : OrderVars} (hn : NamesOK ts) (hy : orderVariables ts = .ok y)
    {j jp x : Val} (hjp : jp ≠ inKey) (hl : ListedInOrder ts j jp x) :
    findP y (jp, j, oneStation, x) = .none := by
  unfold orderVariables at hy
  obtain ⟨y1, h1, hy⟩ := bind_ok hy
  obtain ⟨y2, h2, hy⟩ := bind_ok hy
  obtain ⟨y3, h3, hy⟩ := bind_ok hy
  have p1 : findP y1 (jp, j, oneStation, x) = .none := by
    refine loop_inv h1 (fun z => findP z (jp, j, oneStation, x) = .none) rfl ?_
    intro e he a b ha hab
    refine loop_inv hab (fun z => findP z (jp, j, oneStation, x) = .none) ha ?_
    intro p hp a b ha hab
    refine addOrder_absent ?_ ha (updateY4_eq a p.1 p.2 e.1.1 e.1.2 ▸ hab)
    intro h
    simp only [Prod.mk.injEq] at h
    exact (hn.names.josingle e he).1 h.2.2.1.symm
  have p2 : findP y2 (jp, j, oneStation, x) = .none := by
    refine loop_inv h2 (fun z => findP z (jp, j, oneStation, x) = .none) p1 ?_
    intro e he a b ha hab
    refine loop_inv hab (fun z => findP z (jp, j, oneStation, x) = .none) ha ?_
    intro e2 he2 a b ha hab
    refine loop_inv hab (fun z => findP z (jp, j, oneStation, x) = .none) ha ?_
    intro g hg a b ha hab
    refine loop_inv hab (fun z => findP z (jp, j, oneStation, x) = .none) ha ?_
    intro p hp a b ha hab
    refine addOrder_absent ?_ ha (updateY3_eq a p.1 p.2 e.1 ▸ hab)
    intro h
    simp only [Prod.mk.injEq] at h
    obtain ⟨g1, g2, _, g3⟩ := h
    exact hl.jd e he g3.symm e2 he2 g hg (mem_pairs_iff.1 (by rw [g1, g2]; exact hp))
  have p3 : findP y3 (jp, j, oneStation, x) = .none := by
    refine loop_inv h3 (fun z => findP z (jp, j, oneStation, x) = .none) p2 ?_
    intro e he a b ha hab
    refine loop_inv hab (fun z => findP z (jp, j, oneStation, x) = .none) ha ?_
    intro g hg a b ha hab
    refine loop_inv hab (fun z => findP z (jp, j, oneStation, x) = .none) ha ?_
    intro p hp a b ha hab
    refine addOrder_absent ?_ ha (updateY3_eq a p.1 p.2 e.1 ▸ hab)
    intro h
    simp only [Prod.mk.injEq] at h
    obtain ⟨g1, g2, _, g3⟩ := h
    exact hl.jtrack e he g3.symm g hg (mem_pairs_iff.1 (by rw [g1, g2]; exact hp))
  refine loop_inv hy (fun z => findP z (jp, j, oneStation, x) = .none) p3 ?_
  intro e he a b ha hab
  refine loop_inv hab (fun z => findP z (jp, j, oneStation, x) = .none) ha ?_
  intro pair hpair a b ha hab
  have hkeys := hl.jswitch e he pair hpair
  unfold orderVar4switchBody at hab
  split at hab
  · rename_i k c kp d
    have hk : ¬ (jp = k ∧ j = kp) := fun h => hkeys (by simp [Dict.keys, h.1, h.2])
    obtain ⟨sp, hsp, hab⟩ := bind_ok hab
    obtain ⟨spp, hspp, hab⟩ := bind_ok hab
    have u3 : ∀ {z w : OrderVars} {q : Val}, findP z (jp, j, oneStation, x) = .none →
        updateY3 z k kp q = .ok w → findP w (jp, j, oneStation, x) = .none := by
      intro z w q hz hw
      refine addOrder_absent ?_ hz (updateY3_eq z k kp q ▸ hw)
      intro h
      simp only [Prod.mk.injEq] at h
      exact hk ⟨h.1, h.2.1⟩
    have u4 : ∀ {z w : OrderVars} {q r : Val}, findP z (jp, j, oneStation, x) = .none →
        updateY4 z k kp q r = .ok w → findP w (jp, j, oneStation, x) = .none := by
      intro z w q r hz hw
      refine addOrder_absent ?_ hz (updateY4_eq z k kp q r ▸ hw)
      intro h
      simp only [Prod.mk.injEq] at h
      exact hk ⟨h.1, h.2.1⟩
    have ui : ∀ {z w : OrderVars} {q : Val}, findP z (jp, j, oneStation, x) = .none →
        updateY4in z inKey k kp q = .ok w → findP w (jp, j, oneStation, x) = .none := by
      intro z w q hz hw
      refine addOrder_absent ?_ hz (updateY4in_eq z inKey k kp q ▸ hw)
      intro h
      simp only [Prod.mk.injEq] at h
      exact hjp h.1
    split at hab
    · split at hab
      · obtain ⟨mo, _, hab⟩ := bind_ok hab
        split at hab
        · exact ui ha hab
        · exact u3 ha hab
      · exact u3 ha hab
    · split at hab
      · exact u4 ha hab
      · exact ui ha hab
  · cases hab

/-- **C13, partial.** Full claim: `OrderKept`. Missing: the two trains must be named in the same
order (`j` before `jp`) by all lists of the data for `sp` and `s`, and neither may be exempt from
the station-track rule at `s`. Then the precedences at `s` and `sp` agree; and for non-negative
headways and reservation times and positive stops the trains leave `s` in the order in which they
left `sp`. -/
theorem C13_orderKept_partial (hb : buildProblem ts tt dmax cat = .ok b) (hn : NamesOK ts)
    (hw : WellFormed ts) (hf : Feasible b σ) {j jp sp s : Val} (hfo : Following ts j jp sp s)
    (hl : ListedInOrder ts j jp s) (hl' : ListedInOrder ts j jp sp)
    (hx : ¬ TrackExempt ts s j) (hx' : ¬ TrackExempt ts s jp) :
    (First3 b.y σ j jp s ↔ First3 b.y σ j jp sp) ∧
    (sp ≠ .none → (∀ k, ¬ TakesOver ts j s k) → (∀ k, ¬ TakesOver ts jp s k) →
      (∀ h, Headway tt j jp sp s h ∨ Headway tt jp j sp s h → 0 ≤ h) →
      (∀ q, Stop tt j s q ∨ Stop tt jp s q → 0 < q) → (∀ r, Res tt r → 0 ≤ r) →
      ∀ t tp u up, Departs ts tt b.dv σ j sp t → Departs ts tt b.dv σ jp sp tp →
        Departs ts tt b.dv σ j s u → Departs ts tt b.dv σ jp s up →
        (t < tp → u < up) ∧ (tp < t → up < u)) := by
  have P := parts hb
  have hrules := (satisfies_iff_rules hb hn hw hf.adm).1 hf.sat
  obtain ⟨gs, hgs, g, hg, hjg, hjpg⟩ := hfo.track
  have he : (s, gs) ∈ ts.Jtrack := Dict.mem_of_get? hgs
  have n1 := hn.names.jtrack _ he g hg j hjg
  have n2 := hn.names.jtrack _ he g hg jp hjpg
  have hsub : [j, jp].Sublist g := by
    rcases pairs_of_mem hjg hjpg hfo.ne with h | h
    · exact mem_pairs_iff.1 h
    · exact absurd (mem_pairs_iff.1 h) (hl.jtrack _ he rfl g hg)
  obtain ⟨d, gl, hd, hds, gr, hgr, hj1, hj2, _⟩ := hfo.line
  obtain ⟨r1, r2⟩ := hrules.track _ he g hg j jp hsub hfo.stock
  obtain ⟨hc, one'⟩ := r1 hx'
  have one := r2 hx
  have hnm : ¬ MayOvertake ts j jp s := by
    rintro ⟨_, p, pp, h1, h2, _, _, h3⟩
    cases prevOf_unique h1 hfo.prev
    cases prevOf_unique h2 hfo.prev'
    rcases h3 with h3 | h3
    · exact h3 rfl
    · exact h3 hfo.line
  have hjd : (sp, d) ∈ ts.Jd := Dict.mem_of_get? hd
  have hjd2 : (s, gl) ∈ d := Dict.mem_of_get? hds
  have ex1 : Exists3 b.y j jp s := hasY3_jtrack P.hy he hg (mem_pairs_iff.2 hsub)
  have ex2 : Exists3 b.y j jp sp := hasY3_jd' P hjd hjd2 hgr hj1 hj2 hfo.ne
  have v1 := ex1.resolve_right (fun h => h (absent_of_listed hn P.hy n2 hl))
  have v2 := ex2.resolve_right (fun h => h (absent_of_listed hn P.hy n2 hl'))
  have hiff : First3 b.y σ j jp s ↔ First3 b.y σ j jp sp := by
    refine (hc sp d hfo.prev hd (by rw [hds]; simp) ?_).1 hnm (findP_ne_none.2 v1) (findP_ne_none.2 v2)
    intro gs' hgs'
    rw [hgs] at hgs'; cases hgs'
    exact ⟨g, hg, hjg, hjpg, hfo.ne⟩
  refine ⟨hiff, ?_⟩
  intro hsp hto hto' hhead hstop hres t tp u up dt dtp du dup
  have hnb3 : ∀ x, Exists3 b.y j jp x → (First3 b.y σ j jp x ↔ ¬ First3 b.y σ jp j x) := by
    intro x hx
    rw [first3_iff, first3_iff]
    exact firstP_iff_not P hf.adm (noBoth3 hn P.hy x n1 hfo.ne) hx
  -- what a precedence at `s` means
  have step : ∀ {j jp : Val} {u up tp : ℚ}, PrevOf ts jp s sp → (∀ k, ¬ TakesOver ts jp s k) →
      (∀ q, Stop tt jp s q → 0 < q) → jp ∈ ts.J →
      TrackOne ts tt (Departs ts tt b.dv σ) (First3 b.y σ) s j jp →
      HasDelay ts j s → Departs ts tt b.dv σ j s u → Departs ts tt b.dv σ jp sp tp →
      Departs ts tt b.dv σ jp s up → (∃ r, 0 ≤ r ∧ ExtraRes ts tt s r) → First3 b.y σ j jp s →
      u < up := by
    intro j jp u up tp hprev hto hstop hJ htr hdel du dtp dup ⟨r, hr0, hr⟩ hF
    obtain ⟨tp', w, st, dtp', hw', hst, hle⟩ := C03_step hb hf hJ hprev hsp dup
    have := htr.2 hdel.2.2.2 hF u (tp' + w) r du
      (.inr (.inl ⟨hto, sp, tp', w, hprev, hsp, dtp', hw', rfl⟩)) hr
    have := hstop st hst
    linarith
  have hasD : ∀ {k x : Val} {z : ℚ}, Departs ts tt b.dv σ k x z → HasDelay ts k x := by
    rintro k x z ⟨e, v, _, hv, _⟩
    rw [delayAt_ok, delayVariables_find P.hdv] at hv
    exact hv.1
  have hres' : ∃ r, 0 ≤ r ∧ ExtraRes ts tt s r := by
    by_cases hl : ∃ l, ts.addSwithes = some l ∧ s ∈ l
    · have ho := (track_oks P.o4 _ he g hg _ (mem_pairs_iff.2 hsub) hfo.stock).2
      obtain ⟨r, hr⟩ := trainsOrder_res_ok ((track_second (σ := fun _ => 0) ho).2 hx)
        (hasD du).2.2.2
      refine ⟨r, ?_, hr⟩
      rcases hr with ⟨_, hr⟩ | ⟨h, _⟩
      · exact hres r hr
      · exact absurd hl h
    · exact ⟨0, le_refl _, .inr ⟨hl, rfl⟩⟩
  obtain ⟨h1, h2, hh1, hh2, _⟩ := C01_headway hb hn hf hjd hjd2 hgr hj1 hj2 hfo.ne
  have hr := hrules.headway _ hjd _ hjd2 _ hgr
  have g1 := hhead h1 (.inl hh1)
  have g2 := hhead h2 (.inr hh2)
  constructor
  · intro hlt
    have hF : First3 b.y σ j jp sp := by
      rw [hnb3 sp ex2]
      intro h
      have := hr jp hj2 j hj1 (Ne.symm hfo.ne) h tp t h2 dtp dt hh2
      linarith
    exact step hfo.prev' hto' (fun q hq => hstop q (.inr hq)) (hasD dup).1 one (hasD du) du dtp dup
      hres' (hiff.2 hF)
  · intro hlt
    have hF : First3 b.y σ jp j sp := by
      by_contra h
      have := hr j hj1 jp hj2 hfo.ne ((hnb3 sp ex2).2 h) t tp h1 dt dtp hh1
      linarith
    have hF' : First3 b.y σ jp j s := by
      by_contra h
      exact (hnb3 sp ex2).1 (hiff.1 ((hnb3 s ex1).2 h)) hF
    exact step hfo.prev hto (fun q hq => hstop q (.inl hq)) (hasD du).1 one' (hasD dup) dup dt du
      hres' hF'

/-- the hypotheses of the partial theorem are met by trains 1 and 2 of the small example on the way
from A to B, and both precedences exist -/
example : Following Small.ts (.int 1) (.int 2) (.str "A") (.str "B") ∧
    ListedInOrder Small.ts (.int 1) (.int 2) (.str "A") ∧
    ListedInOrder Small.ts (.int 1) (.int 2) (.str "B") ∧
    ¬ TrackExempt Small.ts (.str "B") (.int 1) ∧ ¬ TrackExempt Small.ts (.str "B") (.int 2) ∧
    (∀ k, ¬ TakesOver Small.ts (.int 1) (.str "B") k) ∧
    (∀ k, ¬ TakesOver Small.ts (.int 2) (.str "B") k) ∧
    ∃ b, buildProblem Small.ts Small.tt 10 .integer = .ok b ∧ Feasible b Small.σ ∧
      Departs Small.ts Small.tt b.dv Small.σ (.int 1) (.str "B") 10 ∧
      Departs Small.ts Small.tt b.dv Small.σ (.int 2) (.str "B") 12 := by
  refine ⟨⟨by decide, ?_, ?_, ?_, ?_, ?_⟩, ⟨?_, ?_, ?_⟩, ⟨?_, ?_, ?_⟩, ?_, ?_, ?_, ?_, ?_⟩
  · exact prevOf_iff.2 ⟨[.str "A", .str "B", .str "C"], by decide, by decide⟩
  · exact prevOf_iff.2 ⟨[.str "A", .str "B", .str "C"], by decide, by decide⟩
  · exact ⟨_, _, rfl, rfl, [.int 1, .int 2, .int 4], by decide, by decide, by decide, by decide⟩
  · exact ⟨_, rfl, [.int 1, .int 2], by decide, by decide, by decide⟩
  · rintro ⟨_, e, he, h⟩
    revert e; decide
  · decide
  · decide
  · decide
  · decide
  · decide
  · decide
  · rintro ⟨d, n, m, h1, h2, h3, h4⟩
    cases h1; cases h2; cases h3; revert h4; decide
  · rintro ⟨d, n, m, h1, h2, h3, h4⟩
    cases h1; cases h2; cases h3; revert h4; decide
  · rintro k ⟨ps, h1, _⟩; cases h1
  · rintro k ⟨ps, h1, _⟩; cases h1
  · obtain ⟨b, hb, hf⟩ := Small.feasible
    exact ⟨b, hb, hf, departs_of_check hb (by decide +kernel), departs_of_check hb (by decide +kernel)⟩

end Verif
