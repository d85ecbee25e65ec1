import Verif.Proofs.PlanArcs
import Verif.Props.Stays

/-!
# Two trains on the same track in a plan

A check on plans (see `Verif.Proofs.CodedPlan`): two trains stand on the same track of a station at the
same time.
-/

namespace Verif

/-- Trains `t` and `t'`, not of the same rolling stock, stand in station `x` in block `y`, `t` from `a` to
`d` and `t'` from `a'` to `d'`, and these times overlap. -/
structure Collide (td : Trains) (st : Stations) (D : Val → Val → ℚ → Prop) (t t' : Int) (x y : String)
    (a d a' d' : ℚ) : Prop where
  ne : t ≠ t'
  unpaired : ¬ Paired t t'
  block : ∃ rows q, TableOf td t rows ∧ q ∈ rows ∧ q.station = some x ∧ q.path = y
  block' : ∃ rows q, TableOf td t' rows ∧ q ∈ rows ∧ q.station = some x ∧ q.path = y
  stands : InStationFor td st 1 D t x a d
  stands' : InStationFor td st 1 D t' x a' d'
  before : a < d'
  before' : a' < d

/-- Train `t` runs from station `p` over the blocks `m` to block `y` of station `x`, and goes on. It leaves
`p` at `dp` and `x` at `d`. Passing times are not negative, and it stops in `x` at least a minute. -/
def RunsThen (td : Trains) (D : Val → Val → ℚ → Prop) (t : Int) (p x y : String) (m : List String)
    (dp d : ℚ) : Prop :=
  ∃ rows l q, TableOf td t rows ∧ Consecutive rows p x l ∧ l.map (·.path) = m ∧
    (∀ w ∈ timesOf l, 0 ≤ w) ∧ q ∈ rows ∧ q.station = some x ∧ q.path = y ∧
    1 ≤ roundIf 1 (q.passingTime.getD 0) ∧ D (.int t) (.str p) dp ∧ D (.int t) (.str x) d

namespace CodedNet

variable {N : CodedNet} {good : List (Nat × Nat)} {td : Trains} {t1 : String}
  {delays : List (Int × ℚ)} {dmax : Int} {sp : Special} {P : Plan}

/-- the `k`-th train has the rolling stock of the `k0`-th, and no other train gives it any -/
def onlyFrom (P : Plan) (k0 k : Nat) : Bool := match P[k0]?, P[k]? with
  | some (c0, _), some (c, _) =>
    Nat.beq c.number (10 * c0.number + 9) && P.all fun x => !Nat.beq x.1.number (10 * c.number + 9)
  | _, _ => false

/-- when the rolling stock of the `k`-th train comes to station `i`: with that train or with the `k0`-th -/
def standsFrom (N : CodedNet) (P : Plan) (k0 k i : Nat) : Option Int :=
  match (if Nat.beq k0 k then N.cameFrom P k i else
    if onlyFrom P k0 k then N.bringsTo P k0 k i else none), P[k0]? with
  | some (j, w), some (_, its) => (itemAt its j).map fun a => a.dep + w
  | _, _ => none

/-- the track of the `k`-th train in station `i`, and when it leaves -/
def standsTo (N : CodedNet) (P : Plan) (k i : Nat) : Option (Nat × Int) := match P[k]? with
  | some (c, its) => match itemAt its i with
    | some a => match a.track with
      | some y => if N.hasBlock c i && a.go then some (y, a.dep) else none
      | none => none
    | none => none
  | none => none

variable {k k0 k' k0' i y : Nat} {w w' d d' : Int} {D : Val → Val → ℚ → Prop}

theorem standsTo_spec (K : Planned N good td t1 delays dmax sp P)
    (hD : ∀ t x, Leaves td t x → D (.int t) (.str x) (planDep N P t x))
    (h : N.standsTo P k i = some (y, d)) :
    D (.int (numberOf P k)) (.str (N.nameAt i)) d ∧
    ∃ rows q, TableOf td (numberOf P k) rows ∧ q ∈ rows ∧ q.station = some (N.nameAt i) ∧
      q.path = nameOf N.names y := by
  unfold standsTo at h
  split at h
  swap
  · cases h
  rename_i c its hk
  split at h
  swap
  · cases h
  rename_i a ha
  split at h
  swap
  · cases h
  rename_i y' hy
  rw [Option.ite_none_right_eq_some] at h
  obtain ⟨hcond, h⟩ := h
  simp only [Bool.and_eq_true] at hcond
  simp only [Option.some.injEq, Prod.mk.injEq] at h
  obtain ⟨rfl, rfl⟩ := h
  obtain ⟨x, pre, r, post, a', V⟩ := K.visit_of hk hcond.1
  obtain rfl : a' = a := Option.some.inj (V.item.symm.trans ha)
  have e1 := V.nameAt
  have e2 := V.numberOf
  rw [← e1, ← e2] at V
  refine ⟨?_, _, N.tag r, V.table K, by simp, V.station, ?_⟩
  · rw [← V.dep K]
    exact hD _ _ (V.leaves K (V.facts.go.1 hcond.2))
  · rw [V.track_eq hy]
    rfl

theorem cameFrom_comes (K : Planned N good td t1 delays dmax sp P)
    (hD : ∀ t x, Leaves td t x → D (.int t) (.str x) (planDep N P t x)) {j : Nat} {c : CodedSection}
    {its : List Item} {a : Item} (h : N.cameFrom P k i = some (j, w)) (hk : P[k]? = some (c, its))
    (ha : itemAt its j = some a) :
    ComesTo td 1 D (numberOf P k) (N.nameAt i) ((a.dep + w : Int) : ℚ) := by
  obtain ⟨c1, its1, pre, r, post, a1, pre0, r0, post0, a0, rows, mid, l, f1, V, V0, ht, hc, hw, rfl⟩ :=
    cameFrom_spec K h
  have h1 := V.sec.symm.trans hk
  simp only [Option.some.injEq, Prod.mk.injEq] at h1
  obtain ⟨rfl, rfl⟩ := h1
  obtain rfl : a0 = a := Option.some.inj (V0.item.symm.trans ha)
  refine ⟨rows, _, _, _, ht, hc, hD _ _ (leaves_of_next K.data ht hc), ?_⟩
  rw [V0.dep K, hw.time]
  push_cast
  rfl

theorem stands_spec (K : Planned N good td t1 delays dmax sp P)
    (hD : ∀ t x, Leaves td t x → D (.int t) (.str x) (planDep N P t x))
    (hd : N.standsTo P k i = some (y, d)) (h : N.standsFrom P k0 k i = some w) :
    InStationFor td N.stationTable 1 D (numberOf P k) (N.nameAt i) w d := by
  refine ⟨(standsTo_spec K hD hd).1, ?_⟩
  unfold standsFrom at h
  split at h
  swap
  · cases h
  rename_i j w0 c0 its0 hj hk0
  rw [Option.map_eq_some_iff] at h
  obtain ⟨a, ha, rfl⟩ := h
  split at hj
  · rename_i e
    rw [Nat.beq_eq] at e
    subst e
    exact .inl (cameFrom_comes K hD hj hk0 ha)
  · rw [Option.ite_none_right_eq_some] at hj
    obtain ⟨ho, hb⟩ := hj
    refine .inr (.inl ⟨numberOf P k0, ?_, ?_, ?_⟩)
    · unfold bringsTo at hb
      split at hb
      swap
      · cases hb
      rename_i c its c' its' hk hk'
      rw [Option.ite_none_right_eq_some] at hb
      obtain ⟨hcond, hcf⟩ := hb
      simp only [Bool.and_eq_true] at hcond
      obtain ⟨c1, its1, pre, r, post, a1, pre0, r0, post0, a0, rows, mid, l, f1, V, -⟩ :=
        cameFrom_spec K hcf
      obtain ⟨-, -, hm, hp⟩ := (handsOn_coded K hk hk').2 ⟨hcond.1, i, isAt_iff.1 hcond.2, V.name⟩
      have e : numberOf P k0 = c.number := by
        unfold numberOf
        rw [hk]
      have e' : numberOf P k = c'.number := by
        unfold numberOf
        rw [hk']
      unfold onlyFrom at ho
      rw [hk, hk'] at ho
      simp only [Bool.and_eq_true, Nat.beq_eq] at ho
      rw [e, e']
      refine ⟨.inr (by omega), ?_, hm⟩
      rcases hp with hp | hp
      · omega
      · exact hp.2
    · unfold bringsTo at hb
      split at hb
      swap
      · cases hb
      rename_i c its c' its' hk hk'
      rw [Option.ite_none_right_eq_some] at hb
      exact cameFrom_comes K hD hb.2 hk0 ha
    · rintro t0 hp ⟨bl, ⟨rows, q, ht, -⟩, -⟩
      obtain ⟨n, c2, its2, hn, rfl, -⟩ := K.sec_of ht
      unfold onlyFrom at ho
      split at ho
      swap
      · cases ho
      rename_i c its c' its' hk hk'
      simp only [Bool.and_eq_true, Nat.beq_eq, List.all_eq_true, Bool.not_eq_true'] at ho
      have e : numberOf P k0 = c.number := by
        unfold numberOf
        rw [hk]
      have e' : numberOf P k = c'.number := by
        unfold numberOf
        rw [hk']
      rw [e'] at hp
      rw [e]
      have := ho.2 _ (List.mem_of_getElem? hn)
      rcases hp with hp | hp
      · have h2 : c2.number = 10 * c'.number + 9 := by omega
        simp only [h2] at this
        simp at this
      · omega

/-- In the plan the `k`-th and the `k'`-th train stand on the same track of station `i` at the same time;
their rolling stock comes with the `k0`-th and the `k0'`-th train. -/
def hits (N : CodedNet) (P : Plan) (k0 k k0' k' i y : Nat) (w d w' d' : Int) : Bool :=
  unlike P k k' && N.standsFrom P k0 k i == some w && N.standsFrom P k0' k' i == some w' &&
    N.standsTo P k i == some (y, d) && N.standsTo P k' i == some (y, d') &&
    decide (w < d') && decide (w' < d)

theorem hits_spec (K : Planned N good td t1 delays dmax sp P)
    (hD : ∀ t x, Leaves td t x → D (.int t) (.str x) (planDep N P t x))
    (h : N.hits P k0 k k0' k' i y w d w' d' = true) :
    Collide td N.stationTable D (numberOf P k) (numberOf P k') (N.nameAt i) (nameOf N.names y) w d w' d' := by
  unfold hits at h
  simp only [Bool.and_eq_true, beq_iff_eq, decide_eq_true_eq] at h
  obtain ⟨⟨⟨⟨⟨⟨h1, h2⟩, h3⟩, h4⟩, h5⟩, h6⟩, h7⟩ := h
  obtain ⟨n1, n2⟩ := unlike_spec K h1
  exact ⟨n1, n2, (standsTo_spec K hD h4).2, (standsTo_spec K hD h5).2, stands_spec K hD h4 h2,
    stands_spec K hD h5 h3, by exact_mod_cast h6, by exact_mod_cast h7⟩

/-- where the `k`-th train comes from to station `i`, the blocks between, its track, and when it leaves
the two stations -/
def runsThen (N : CodedNet) (P : Plan) (k i : Nat) : Option (Nat × List Nat × Nat × Int × Int) :=
  match P[k]?, N.cameFrom P k i with
  | some (c, its), some (j, _) =>
    match itemAt its i, itemAt its j, N.atStation (N.crows c.rows) i with
    | some a, some a0, some (_, r, _) => match a0.next with
      | some l => if a.go && l.times.all (fun w => decide (0 ≤ w)) &&
          decide (1 ≤ roundTenths (tenths r.pass)) then some (j, l.blocks, r.block, a0.dep, a.dep) else none
      | none => none
    | _, _, _ => none
  | _, _ => none

theorem runsThen_spec (K : Planned N good td t1 delays dmax sp P)
    (hD : ∀ t x, Leaves td t x → D (.int t) (.str x) (planDep N P t x)) {j : Nat} {m : List Nat}
    (h : N.runsThen P k i = some (j, m, y, d, d')) :
    RunsThen td D (numberOf P k) (N.nameAt j) (N.nameAt i) (nameOf N.names y) (m.map (nameOf N.names))
      d d' := by
  unfold runsThen at h
  split at h
  swap
  · cases h
  rename_i c its j' w hk hcf
  split at h
  swap
  · cases h
  rename_i a a0 pre r post ha ha0 hat
  split at h
  swap
  · cases h
  rename_i l hl
  rw [Option.ite_none_right_eq_some] at h
  obtain ⟨hcond, h⟩ := h
  simp only [Option.some.injEq, Prod.mk.injEq] at h
  obtain ⟨rfl, rfl, rfl, rfl, rfl⟩ := h
  simp only [Bool.and_eq_true, List.all_eq_true, decide_eq_true_eq] at hcond
  obtain ⟨⟨hgo, hpos⟩, hstop⟩ := hcond
  obtain ⟨c1, its1, pre', r', post', a1, pre0, r0, post0, a0', rows, mid, l', f1, V, V0, ht, hc, hw, rfl⟩ :=
    cameFrom_spec K hcf
  have h1 := V.sec.symm.trans hk
  simp only [Option.some.injEq, Prod.mk.injEq] at h1
  obtain ⟨rfl, rfl⟩ := h1
  obtain rfl : a0' = a0 := Option.some.inj (V0.item.symm.trans ha0)
  obtain rfl : a1 = a := Option.some.inj (V.item.symm.trans ha)
  obtain rfl : l' = l := Option.some.inj (hw.next.symm.trans hl)
  obtain ⟨hsp, hix⟩ := atStation_some hat
  have hq : N.tag r ∈ rows := by
    rw [ht.unique (V.table K), ← List.map_cons, ← List.map_append, ← V.split, hsp]
    simp
  have hs : (N.tag r).station = some (N.nameAt i) := by
    show N.station r.block = _
    unfold CodedNet.station
    simp only at hix
    rw [hix]
    exact V.name
  have he := V.row_unique K ht hq hs
  have hp : r.pass = r'.pass := congrArg Row.passingTime he
  refine ⟨rows, _, N.tag r, ht, hc, ?_, ?_, hq, hs, rfl, ?_, ?_, ?_⟩
  · rw [tag_paths, hw.blocks]
  · rw [hw.minutes]
    intro z hz
    obtain ⟨n, hn, rfl⟩ := List.mem_map.1 hz
    have := hpos n hn
    positivity
  · show 1 ≤ roundIf 1 (r.pass.getD 0)
    rw [tenths_eq (by rw [hp]; exact V.facts.tenth), roundIf_tenths]
    exact_mod_cast hstop
  · rw [← V0.dep K]
    exact hD _ _ (leaves_of_next K.data ht hc)
  · rw [← V.dep K]
    exact hD _ _ (V.leaves K (V.facts.go.1 hgo))

end CodedNet

end Verif
