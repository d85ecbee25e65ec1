import Verif.Proofs.GenRules
import Verif.Proofs.OrderStored
import Verif.Props.Earliest
import Mathlib.Order.WellFounded
import Mathlib.SetTheory.Cardinal.Order

/-!
# C71: no timetable that keeps the rules of the tables is excluded

The converse of C66. The rules are stated on the tables of the trains: departure times, which train
goes first where two of them are in each other's way, and that the other one waits.
-/

namespace Verif

variable {td : Trains} {st : Stations} {table : List PathRow} {t1 : String} {r : Int}
  {delays : List (Int × ℚ)} {ts : TrainSets} {tt : Timetable} {dmax : ℚ} {cat : Cat} {b : Built}

/-- Departure times, and which train goes first: `first t t' x` at station `x`; `against t t' x x'`
that train `t`, departing from `x`, goes before train `t'`, departing from `x'`; `enters t t' x` on the
way into `x`. -/
structure TablePlan where
  dep : Int → String → ℚ
  first : Int → Int → String → Prop
  against : Int → Int → String → String → Prop
  enters : Int → Int → String → Prop

/-- The rolling stock of train `t` comes to `x` at `a`: as the train that hands it over, or as `t`
itself; if it begins in `x`, it is there from the earliest departure. -/
def StockComes (td : Trains) (st : Stations) (t1 : String) (r : Int) (delays : List (Int × ℚ))
    (dep : Int → String → ℚ) (t : Int) (x : String) (a : ℚ) : Prop :=
  (∃ t0 rows p m, HandsOn td st t0 t x ∧ TableOf td t0 rows ∧ Consecutive rows p x m ∧
    a = dep t0 p + roundIf r (timesOf m).sum) ∨
  ((∀ t0, ¬ HandsOn td st t0 t x) ∧ ∃ rows p m, TableOf td t rows ∧ Consecutive rows p x m ∧
    a = dep t p + roundIf r (timesOf m).sum) ∨
  ((∀ t0, ¬ HandsOn td st t0 t x) ∧ ∃ rows row, TableOf td t rows ∧ FirstStation rows x row ∧
    Earliest rows t1 r (addedDelay delays t) x a)

/-- train `t` does not end in `x`, nor in a station whose name contains the name of `x` -/
def GoesOnFrom (td : Trains) (st : Stations) (t : Int) (x : String) : Prop :=
  ∀ n, EndsIn td st t n → ¬ x.toList <:+: n.toList

/-- the order of trains `t` and `t'` at `x` matters: they leave over the same blocks, share a track, or
both leave over common switches -/
def Contend (td : Trains) (table : List PathRow) (t t' : Int) (x : String) : Prop :=
  (∃ x2 rows rows' m m', TableOf td t rows ∧ TableOf td t' rows' ∧ Consecutive rows x x2 m ∧
    Consecutive rows' x x2 m' ∧ m.map (·.path) = m'.map (·.path)) ∨
  (∃ q q', ShareTrack td t t' x q q') ∨ ShareSwitch td table t t' x "out" "out"

/-- The rules, except the one for a train that leaves over switches where another one comes. `d_max` bounds
the delays, `cat` is the category of the variables. -/
structure TableRulesCore (td : Trains) (st : Stations) (table : List PathRow) (t1 : String) (r : Int)
    (delays : List (Int × ℚ)) (dmax : ℚ) (cat : Cat) (π : TablePlan) : Prop where
  /-- of two trains only one goes first -/
  one : ∀ t t' x, π.first t t' x → ¬ π.first t' t x
  oneAgainst : ∀ t t' x x', π.against t t' x x' → ¬ π.against t' t x' x
  oneEnters : ∀ t t' x, π.enters t t' x → ¬ π.enters t' t x
  /-- trains leave between the earliest departure and `d_max` minutes later -/
  late : ∀ t x rows e, TableOf td t rows → Leaves td t x →
    Earliest rows t1 r (addedDelay delays t) x e →
    e ≤ π.dep t x ∧ π.dep t x ≤ e + dmax ∧ (cat = .integer → ∃ n : ℤ, π.dep t x - e = n)
  /-- they have the time for the runs and the stops -/
  runs : ∀ t p x rows m q, TableOf td t rows → Consecutive rows p x m → q ∈ rows →
    q.station = some x → Leaves td t x →
    π.dep t p + roundIf r (timesOf m).sum + roundIf r (q.passingTime.getD 0) ≤ π.dep t x
  /-- rolling stock is handed over after the turnaround time -/
  stock : ∀ t t' p x rows rows' m q v, HandsOn td st t t' x → TableOf td t rows →
    TableOf td t' rows' → Consecutive rows p x m → rows'.head? = some q → q.turnaround = some v →
    π.dep t p + roundIf r (timesOf m).sum + v ≤ π.dep t' x
  /-- trains one after the other over the same blocks keep the headway -/
  following : ∀ t t' x x2 rows rows' m m', t ≠ t' → TableOf td t rows → TableOf td t' rows' →
    Consecutive rows x x2 m → Consecutive rows' x x2 m' → m.map (·.path) = m'.map (·.path) →
    (π.first t t' x ∧ π.dep t x +
      roundIf r ((headwayOf (headwayK x x2) (timesOf m) (timesOf m')).getD 0) ≤ π.dep t' x) ∨
    (π.first t' t x ∧ π.dep t' x +
      roundIf r ((headwayOf (headwayK x x2) (timesOf m') (timesOf m)).getD 0) ≤ π.dep t x)
  /-- of trains against each other over the same blocks one waits for the other -/
  opposite : ∀ t t' x x2 rows rows' m m', ¬ Paired t t' → TableOf td t rows → TableOf td t' rows' →
    Consecutive rows x x2 m → Consecutive rows' x2 x m' →
    m.map (·.path) = (m'.map (·.path)).reverse → m ≠ [] →
    (π.against t t' x x2 ∧ π.dep t x + roundIf r (timesOf m).sum ≤ π.dep t' x2) ∨
    (π.against t' t x2 x ∧ π.dep t' x2 + roundIf r (timesOf m').sum ≤ π.dep t x)
  /-- a track is free before the next train comes; if the train that is there first ends in the
  station, or in one whose name contains its name, the next one need not wait -/
  tracks : ∀ t t' x q q', ShareTrack td t t' x q q' →
    (π.first t t' x ∧ (GoesOnFrom td st t x → ∀ a, StockComes td st t1 r delays π.dep t' x a →
      π.dep t x ≤ a)) ∨
    (π.first t' t x ∧ (GoesOnFrom td st t' x → ∀ a, StockComes td st t1 r delays π.dep t x a →
      π.dep t' x ≤ a))
  /-- trains over the same blocks to the same track keep their order -/
  order : ∀ t t' p x q q' rows rows' m m', [t, t'].Sublist (Dict.keys td) →
    ShareTrack td t t' x q q' → GoesOnFrom td st t' x → TableOf td t rows → TableOf td t' rows' →
    Consecutive rows p x m → Consecutive rows' p x m' → m.map (·.path) = m'.map (·.path) →
    (π.first t t' x ∧ π.first t t' p) ∨ (π.first t' t x ∧ π.first t' t p)
  /-- a train that begins at the track has the same order with one that comes to it, here and in the
  station where that one comes from -/
  orderBegins : ∀ t t' p x q q' rows rows' m row', [t, t'].Sublist (Dict.keys td) →
    ShareTrack td t t' x q q' → GoesOnFrom td st t' x → TableOf td t rows → TableOf td t' rows' →
    Consecutive rows p x m → FirstStation rows' x row' → Contend td table t t' p →
    (π.first t t' x ∧ π.first t t' p) ∨ (π.first t' t x ∧ π.first t' t p)
  /-- trains over other blocks, but over common switches, to the same track keep their order -/
  orderIn : ∀ t t' p p' x q q' rows rows' m m', [t, t'].Sublist (Dict.keys td) →
    ShareTrack td t t' x q q' → GoesOnFrom td st t' x → TableOf td t rows → TableOf td t' rows' →
    Consecutive rows p x m → Consecutive rows' p' x m' →
    (p = p' → m.map (·.path) ≠ m'.map (·.path)) → ShareSwitch td table t t' x "in" "in" →
    (π.enters t t' x ∧ π.first t t' x) ∨ (π.enters t' t x ∧ π.first t' t x)
  /-- common switches are passed one minute apart: both trains leave; both come over the same blocks;
  both come over other blocks -/
  bothLeave : ∀ t t' x, ShareSwitch td table t t' x "out" "out" →
    (π.first t t' x ∧ π.dep t x + 1 ≤ π.dep t' x) ∨ (π.first t' t x ∧ π.dep t' x + 1 ≤ π.dep t x)
  bothCome : ∀ t t' p x rows rows' m m', ShareSwitch td table t t' x "in" "in" → TableOf td t rows →
    TableOf td t' rows' → Consecutive rows p x m → Consecutive rows' p x m' →
    m.map (·.path) = m'.map (·.path) →
    (π.first t t' p ∧ π.dep t p + roundIf r (timesOf m).sum + 1 ≤
      π.dep t' p + roundIf r (timesOf m').sum) ∨
    (π.first t' t p ∧ π.dep t' p + roundIf r (timesOf m').sum + 1 ≤
      π.dep t p + roundIf r (timesOf m).sum)
  bothComeApart : ∀ t t' p p' x rows rows' m m', ShareSwitch td table t t' x "in" "in" →
    TableOf td t rows → TableOf td t' rows' → Consecutive rows p x m → Consecutive rows' p' x m' →
    (p = p' → m.map (·.path) ≠ m'.map (·.path)) →
    (π.enters t t' x ∧ π.dep t p + roundIf r (timesOf m).sum + 1 ≤
      π.dep t' p' + roundIf r (timesOf m').sum) ∨
    (π.enters t' t x ∧ π.dep t' p' + roundIf r (timesOf m').sum + 1 ≤
      π.dep t p + roundIf r (timesOf m).sum)

/-- The rules. -/
structure TableRules (td : Trains) (st : Stations) (table : List PathRow) (t1 : String) (r : Int)
    (delays : List (Int × ℚ)) (dmax : ℚ) (cat : Cat) (π : TablePlan) : Prop extends
    TableRulesCore td st table t1 r delays dmax cat π where
  /-- common switches are passed one minute apart: one train leaves and the other comes -/
  cross : ∀ t t' p x rows m, ShareSwitch td table t t' x "out" "in" → TableOf td t' rows →
    Consecutive rows p x m →
    (π.against t t' x p ∧ π.dep t x + 1 ≤ π.dep t' p + roundIf r (timesOf m).sum) ∨
    (π.against t' t p x ∧ π.dep t' p + roundIf r (timesOf m).sum + 1 ≤ π.dep t x)

/-! ## Decided precedences -/

/-- a relation made total in some way -/
def decided {α : Type} (F : α → α → Prop) (a b : α) : Prop := F a b ∨ (¬ F b a ∧ WellOrderingRel a b)

theorem decided_iff {α : Type} {F : α → α → Prop} (hF : ∀ a b, F a b → ¬ F b a) {a b : α}
    (hne : a ≠ b) : decided F a b ↔ ¬ decided F b a := by
  unfold decided
  have h1 : WellOrderingRel a b ∨ WellOrderingRel b a := by
    rcases trichotomous_of WellOrderingRel a b with h | h | h
    · exact .inl h
    · exact absurd h hne
    · exact .inr h
  have h2 : WellOrderingRel a b → ¬ WellOrderingRel b a := fun h h' => asymm_of WellOrderingRel h h'
  have h3 := hF a b
  have h4 := hF b a
  tauto

theorem decided_not {α : Type} {F : α → α → Prop} (hF : ∀ a b, F a b → ¬ F b a) {a b : α}
    (h : F b a) : ¬ decided F a b := by
  rintro (h' | ⟨h', -⟩)
  · exact hF _ _ h h'
  · exact h' h

/-- the relation between trains, for numbers -/
def lift3 (f : Int → Int → String → Prop) (s j j' : Val) : Prop :=
  ∃ t t' x, j = .int t ∧ j' = .int t' ∧ s = .str x ∧ f t t' x

/-- the relation between departures, for numbers and names -/
def lift4 (f : Int → Int → String → String → Prop) (a b : Val × Val) : Prop :=
  ∃ t t' x x', a = (.int t, .str x) ∧ b = (.int t', .str x') ∧ f t t' x x'

theorem lift3_int {f : Int → Int → String → Prop} {t t' : Int} {x : String} :
    lift3 f (.str x) (.int t) (.int t') ↔ f t t' x := by
  constructor
  · rintro ⟨_, _, _, e1, e2, e3, h⟩
    cases e1; cases e2; cases e3
    exact h
  · exact fun h => ⟨_, _, _, rfl, rfl, rfl, h⟩

theorem lift4_int {f : Int → Int → String → String → Prop} {t t' : Int} {x x' : String} :
    lift4 f (.int t, .str x) (.int t', .str x') ↔ f t t' x x' := by
  constructor
  · rintro ⟨_, _, _, _, e1, e2, h⟩
    cases e1; cases e2
    exact h
  · exact fun h => ⟨_, _, _, _, rfl, rfl, h⟩

theorem lift3_asymm {f : Int → Int → String → Prop} (h : ∀ t t' x, f t t' x → ¬ f t' t x) (s : Val) :
    ∀ j j', lift3 f s j j' → ¬ lift3 f s j' j := by
  rintro _ _ ⟨t, t', x, rfl, rfl, rfl, h1⟩ h2
  exact h _ _ _ h1 (lift3_int.1 h2)

theorem lift4_asymm {f : Int → Int → String → String → Prop}
    (h : ∀ t t' x x', f t t' x x' → ¬ f t' t x' x) : ∀ a b, lift4 f a b → ¬ lift4 f b a := by
  rintro _ _ ⟨t, t', x, x', rfl, rfl, h1⟩ h2
  exact h _ _ _ _ h1 (lift4_int.1 h2)

/-! ## The plan -/

/-- departure times for numbers and names -/
def TablePlan.depVal (π : TablePlan) : Val → Val → ℚ
  | .int t, .str x => π.dep t x
  | _, _ => 0

/-- the plan with delays -/
noncomputable def TablePlan.plan (π : TablePlan) (ts : TrainSets) (tt : Timetable) : Plan where
  delay j s := match earliestDepTime ts.paths tt j s with
    | .ok e => π.depVal j s - e
    | .error _ => 0
  F3 j j' s := decided (lift3 π.first s) j j'
  F4 j j' s s' := decided (lift4 π.against) (j, s) (j', s')
  FI j j' s := decided (lift3 π.enters s) j j'

theorem Gen.plan_D (g : Gen td st table t1 r ts tt) (hm : AllMeet td) {π : TablePlan} {j s : Val}
    {d : ℚ} : (π.plan ts tt).D ts tt j s d ↔
      ∃ t x, j = .int t ∧ s = .str x ∧ Leaves td t x ∧ d = π.dep t x := by
  unfold Plan.D
  constructor
  · rintro ⟨hd, e, he, rfl⟩
    obtain ⟨t, x, rfl, rfl, hl⟩ := g.leaves_of_delay hd
    refine ⟨t, x, rfl, rfl, hl, ?_⟩
    simp only [TablePlan.plan, he, TablePlan.depVal]
    ring
  · rintro ⟨t, x, rfl, rfl, hl, rfl⟩
    obtain ⟨e, he⟩ := g.edt hl
    refine ⟨g.delay_of_leaves hm hl, e, he, ?_⟩
    simp only [TablePlan.plan, he, TablePlan.depVal]
    ring

theorem Gen.plan_valid (G : GoodData td st) (h : makeInput td st table t1 r delays = .ok (ts, tt))
    {π : TablePlan} (R : TableRulesCore td st table t1 r delays dmax cat π) :
    (π.plan ts tt).Valid ts dmax cat := by
  have g := gen_of_input G h
  have key : ∀ j s, HasDelay ts j s → 0 ≤ (π.plan ts tt).delay j s ∧ (π.plan ts tt).delay j s ≤ dmax ∧
      (cat = .integer → ∃ n : ℤ, (π.plan ts tt).delay j s = n) := by
    intro j s hd
    obtain ⟨t, x, rfl, rfl, hl⟩ := g.leaves_of_delay hd
    obtain ⟨e, he⟩ := g.edt hl
    obtain ⟨row, rows, ht, -⟩ := id hl
    obtain ⟨h1, h2, h3⟩ := R.late t x rows e ht hl ((C70_earliest G h ht hl).1 he)
    simp only [TablePlan.plan, he, TablePlan.depVal]
    exact ⟨by linarith, by linarith, h3⟩
  exact {
    low := fun j s hd => (key j s hd).1
    up := fun j s hd => (key j s hd).2.1
    int := fun hc j s hd => (key j s hd).2.2 hc
    one3 := fun j jp s hne => decided_iff (lift3_asymm R.one s) hne
    one4 := fun j jp s sp hne => decided_iff (lift4_asymm R.oneAgainst)
      fun e => hne ⟨congrArg Prod.fst e, congrArg Prod.snd e⟩
    oneIn := fun j jp s hne => decided_iff (lift3_asymm R.oneEnters s) hne }

section
variable {π : TablePlan} (R : TableRulesCore td st table t1 r delays dmax cat π)
include R

theorem TableRulesCore.not_first {t t' : Int} {x : String} (h : π.first t' t x) :
    ¬ (π.plan ts tt).F3 (.int t) (.int t') (.str x) :=
  decided_not (lift3_asymm R.one _) (lift3_int.2 h)

theorem TableRulesCore.not_enters {t t' : Int} {x : String} (h : π.enters t' t x) :
    ¬ (π.plan ts tt).FI (.int t) (.int t') (.str x) :=
  decided_not (lift3_asymm R.oneEnters _) (lift3_int.2 h)

theorem TableRulesCore.not_against {t t' : Int} {x x' : String} (h : π.against t' t x' x) :
    ¬ (π.plan ts tt).F4 (.int t) (.int t') (.str x) (.str x') :=
  decided_not (lift4_asymm R.oneAgainst) (lift4_int.2 h)

end

theorem TablePlan.is_first {π : TablePlan} {t t' : Int} {x : String} (h : π.first t t' x) :
    (π.plan ts tt).F3 (.int t) (.int t') (.str x) := .inl (lift3_int.2 h)

theorem TablePlan.is_enters {π : TablePlan} {t t' : Int} {x : String} (h : π.enters t t' x) :
    (π.plan ts tt).FI (.int t) (.int t') (.str x) := .inl (lift3_int.2 h)

/-- whether two trains that come to `x` may overtake each other on the way -/
theorem Gen.mayOvertake (g : Gen td st table t1 r ts tt) (hl : LinesClear td) {t t' : Int}
    {p p' x : String} {rows rows' m m' : List Row} (hne : t ≠ t') (ht : TableOf td t rows)
    (ht' : TableOf td t' rows') (hc : Consecutive rows p x m) (hc' : Consecutive rows' p' x m') :
    MayOvertake ts (.int t) (.int t') (.str x) ↔ (p = p' → m.map (·.path) ≠ m'.map (·.path)) := by
  have hp := g.prev.2 ⟨t, x, rows, rfl, rfl, ht, .inl ⟨p, m, rfl, hc⟩⟩
  have hp' := g.prev.2 ⟨t', x, rows', rfl, rfl, ht', .inl ⟨p', m', rfl, hc'⟩⟩
  constructor
  · rintro ⟨-, q, q', hq, hq', -, -, hor⟩ rfl hs
    cases prevOf_unique hp hq
    cases prevOf_unique hp' hq'
    rcases hor with h | h
    · exact h rfl
    · obtain ⟨d, gs, h1, h2, gr, hg, hi, hi'⟩ := g.jd_together (Runs.of ht hc) (hs ▸ Runs.of ht' hc')
      exact h ⟨d, gs, h1, h2, gr, hg, hi, hi', fun e => hne (by cases e; rfl)⟩
  · intro h
    obtain ⟨d, gs, h1, -⟩ := g.jd_get (Runs.of ht hc)
    have hJd : ts.Jd ≠ [] := fun e => by rw [e] at h1; cases h1
    refine ⟨hJd, _, _, hp, hp', by simp, by simp, ?_⟩
    by_cases e : p = p'
    · subst e
      refine .inr ?_
      rintro ⟨d, gs, h1, h2, gr, hg, hi, hi', -⟩
      obtain ⟨y, y2, u, u', bl, e1, e2, e3, e4, hr, hr'⟩ := g.jd_same hl (Dict.mem_of_get? h1)
        (Dict.mem_of_get? h2) hg hi hi'
      cases e1; cases e2; cases e3; cases e4
      obtain ⟨rows1, m1, ht1, hc1, rfl⟩ := hr
      obtain ⟨rows2, m2, ht2, hc2, e5⟩ := hr'
      cases ht.unique ht1
      cases ht'.unique ht2
      refine h rfl ?_
      rw [(consecutive_unique (g.data.trains.table ht).1 hc hc1).2,
        (consecutive_unique (g.data.trains.table ht').1 hc' hc2).2, e5]
    · exact .inl fun e2 => e (by cases e2; rfl)

/-- a train leaves the station where it begins -/
theorem Gen.begins_leaves (g : Gen td st table t1 r ts tt) {t : Int} {x : String} {rows : List Row}
    {row : Row} (ht : TableOf td t rows) (hf : FirstStation rows x row) : Leaves td t x := by
  obtain ⟨pre, post, rfl, hs, hpre⟩ := hf
  refine ⟨row, _, ht, by simp, hs, fun hl => ?_⟩
  obtain ⟨s, row', rows', ht', hr', hs', hnl⟩ := g.served t _ ht
  cases ht.unique ht'
  obtain ⟨init, hinit⟩ := List.getLast?_eq_some_iff.1 hl
  have ho := (g.data.trains.table ht).1
  obtain ⟨-, -, h3⟩ := once_split ho rfl hinit hs hs
  subst h3
  simp only [List.mem_append, List.mem_singleton] at hr'
  rcases hr' with hr' | rfl
  · rw [hpre _ hr'] at hs'; cases hs'
  · exact hnl hl

/-- the rolling stock comes, in the sense of the rules -/
theorem Gen.arrives_comes (G : GoodData td st)
    (h : makeInput td st table t1 r delays = .ok (ts, tt)) (hm : AllMeet td) {π : TablePlan} {t : Int}
    {x : String} {a : ℚ}
    (ha : Arrives ts tt ((π.plan ts tt).D ts tt) (.int t) (.str x) a) :
    StockComes td st t1 r delays π.dep t x a := by
  have g := gen_of_input G h
  have takes : ∀ {k : Val}, TakesOver ts (.int t) (.str x) k → ∃ t0, k = .int t0 ∧ HandsOn td st t0 t x := by
    rintro k ⟨ps, h1, h2, -⟩
    obtain ⟨y, t0, t', e1, e2, e3, hh⟩ := (g.round_iff hm).1 ⟨ps, h1, List.mem_of_find?_eq_some h2⟩
    cases e1; cases e3
    exact ⟨t0, e2, hh⟩
  have none : (∀ k, ¬ TakesOver ts (.int t) (.str x) k) → ∀ t0, ¬ HandsOn td st t0 t x := by
    intro hk t0 hh
    obtain ⟨ps, h1, h2⟩ := (g.round_iff hm).2 ⟨x, t0, t, rfl, rfl, rfl, hh⟩
    cases hfind : ps.find? (fun p => p.2 = Val.int t) with
    | none =>
      rw [List.find?_eq_none] at hfind
      exact absurd (by simp) (hfind _ h2)
    | some q =>
      have h3 := List.find?_some hfind
      obtain ⟨q1, q2⟩ := q
      simp only [decide_eq_true_eq] at h3
      subst h3
      obtain ⟨y, u, u', e1, e2, e3, -⟩ := (g.round_iff hm).1 ⟨ps, h1, List.mem_of_find?_eq_some hfind⟩
      exact hk q1 ⟨ps, h1, hfind, by rw [e2]; simp⟩
  have time : ∀ {t0 : Int} {p : Val} {d w : ℚ}, PrevOf ts (.int t0) (.str x) p →
      (π.plan ts tt).D ts tt (.int t0) p d → Pass tt (.int t0) p (.str x) w →
      ∃ rows p' m, TableOf td t0 rows ∧ Consecutive rows p' x m ∧
        d + w = π.dep t0 p' + roundIf r (timesOf m).sum := by
    intro t0 p d w hp hd hw
    obtain ⟨u, y, rows, e1, e2, ht, hor⟩ := g.prev.1 hp
    cases e1; cases e2
    obtain ⟨u', y', e1, e2, -, rfl⟩ := (g.plan_D hm).1 hd
    cases e1
    rcases hor with ⟨x0, m, rfl, hc⟩ | ⟨rfl, -⟩
    · cases e2
      exact ⟨rows, _, m, ht, hc, by rw [g.passTime ht hc hw]⟩
    · cases e2
  rcases ha with ⟨k, p, d, w, htk, hp, hd, hw, rfl⟩ | ⟨hno, p, d, w, hp, -, hd, hw, rfl⟩ |
    ⟨hno, hp, he⟩
  · obtain ⟨t0, rfl, hh⟩ := takes htk
    obtain ⟨rows, p', m, h1, h2, h3⟩ := time hp hd hw
    exact .inl ⟨t0, rows, p', m, hh, h1, h2, h3⟩
  · obtain ⟨rows, p', m, h1, h2, h3⟩ := time hp hd hw
    exact .inr (.inl ⟨none hno, rows, p', m, h1, h2, h3⟩)
  · obtain ⟨u, y, rows, e1, e2, ht, hor⟩ := g.prev.1 hp
    cases e1; cases e2
    rcases hor with ⟨x0, m, e, -⟩ | ⟨-, row, hf⟩
    · cases e
    · exact .inr (.inr ⟨none hno, rows, row, ht, hf, (C70_earliest G h ht (g.begins_leaves ht hf)).1 he⟩)

/-- stored precedences at one station -/
theorem Gen.stored (g : Gen td st table t1 r ts tt) (hm : AllMeet td) (hl : LinesClear td)
    (hcells : SameCells table) {y : OrderVars} (hy : Verif.orderVariables ts = .ok y) {t t' : Int} {s : Val}
    {v : LpVar} (h : at4 y (.int t) (.int t') oneStation s = .ok v)
    (hs : ¬ SameStock ts (.int t) (.int t')) (hne : t ≠ t') :
    ∃ x, s = .str x ∧ Contend td table t t' x := by
  have key := orderVariables_y3 (C := fun j j' s => ∀ t t', j = .int t → j' = .int t' →
    ¬ SameStock ts j j' → t ≠ t' → ∃ x, s = .str x ∧ Contend td table t t' x) g.namesOK hy
    ?_ ?_ ?_ (by simp [inKey]) h
  · exact key t t' rfl rfl hs hne
  · rintro e he e2 he2 gr hg j hj j' hj' t t' rfl rfl - -
    obtain ⟨x, x2, u, u', bl, e1, -, i1, i2, hr, hr'⟩ := g.jd_same hl he he2 hg hj hj'
    cases i1; cases i2
    obtain ⟨rows, m, ht, hc, rfl⟩ := hr
    obtain ⟨rows', m', ht', hc', e5⟩ := hr'
    exact ⟨x, e1, .inl ⟨x2, rows, rows', m, m', ht, ht', hc, hc', e5⟩⟩
  · rintro e he gr hg j hj j' hj' t t' rfl rfl hs hne
    obtain ⟨x, u, u', rows, rows', q, q', e1, i1, i2, ht, ht', hq, hq', hqs, hqs', hqq, hx, hbl⟩ :=
      g.jtrack_share he hg hj hj'
    cases i1; cases i2
    exact ⟨x, e1, .inr (.inl ⟨q, q', hne,
      fun hp => hs (g.sameStock hm (table_key ht) (table_key ht') hne hp), ⟨rows, ht, hq⟩,
      ⟨rows', ht', hq'⟩, hqs, hqs', hqq, hx, hbl⟩)⟩
  · rintro e he _ a _ a' hp sp h1 h2 hor t t' rfl rfl hs hne
    obtain ⟨x, u, u', e1, i1, i2, hsw⟩ := g.jswitch_share hm hcells he hp hs
    cases i1; cases i2
    obtain ⟨x', u, u', b, b', rows, rows', e1', e2, -, ht, ht', ha, ha'⟩ := g.jswitch_mem he hp
    simp only [List.cons.injEq, Prod.mk.injEq, and_true] at e2
    obtain ⟨⟨i1, rfl⟩, i2, rfl⟩ := e2
    cases i1; cases i2
    rw [e1] at e1'; cases e1'
    rw [e1] at h1 h2 hor
    obtain ⟨z, h3, hz⟩ := g.depStation ht ha (pair := [(.int t, a), (.int t', a')]) get?_pair_fst
    obtain ⟨z', h4, hz'⟩ := g.depStation ht' ha' (pair := [(.int t, a), (.int t', a')])
      (get?_pair_snd hne)
    rw [h1] at h3; cases h3
    rw [h2] at h4; cases h4
    refine ⟨z, rfl, ?_⟩
    rcases hz with ⟨rfl, rfl, x1, m, hc⟩ | ⟨rfl, m, hc⟩
    · rcases hz' with ⟨rfl, -, -⟩ | ⟨rfl, m', hc'⟩
      · exact .inr (.inr hsw)
      · exact absurd rfl (consecutive_ne (g.data.trains.table ht').1 hc')
    · rcases hz' with ⟨rfl, rfl, -⟩ | ⟨rfl, m', hc'⟩
      · exact absurd rfl (consecutive_ne (g.data.trains.table ht).1 hc)
      · rcases hor with hor | hor
        · cases hor
          exact absurd rfl (consecutive_ne (g.data.trains.table ht).1 hc)
        · rw [g.mayOvertake hl hne ht ht' hc hc'] at hor
          exact .inl ⟨x, rows, rows', m, m', ht, ht', hc, hc', by by_contra h; exact hor fun _ => h⟩

/-- the rules of the tables, except for switches, are the rules of the problem -/
theorem TableRulesCore.otherRules (G : GoodData td st) (hm : AllMeet td) (hta : TurnaroundOK td)
    (hl : LinesClear td) (hcells : SameCells table) (h : makeInput td st table t1 r delays = .ok (ts, tt))
    {π : TablePlan} (R : TableRulesCore td st table t1 r delays dmax cat π) {y : OrderVars}
    (hy : orderVariables ts = .ok y) :
    OtherRules ts tt ((π.plan ts tt).D ts tt) y (π.plan ts tt).F3 (π.plan ts tt).F4
      (π.plan ts tt).FI := by
  have g := gen_of_input G h
  have hint : ∀ {a b : Int}, Val.int a ≠ .int b → a ≠ b := fun h e => h (by rw [e])
  have stockNe : ∀ {t t' rows rows'}, TableOf td t rows → TableOf td t' rows' → t ≠ t' →
      ¬ SameStock ts (.int t) (.int t') → ¬ Paired t t' := fun ht ht' hne hs hp =>
    hs (g.sameStock hm (table_key ht) (table_key ht') hne hp)
  refine ⟨?_, ?_, ?_, ?_, ?_⟩
  · -- following
    intro e he e2 he2 gr hgr j hj jp hjp hne hF t tp w hd hdp hw
    obtain ⟨x, x2, u, u', bl, e1, e3, rfl, rfl, hr, hr'⟩ := g.jd_same hl he he2 hgr hj hjp
    rw [e1] at hF hd hdp hw
    rw [e3] at hw
    obtain ⟨_, _, i1, i2, -, rfl⟩ := (g.plan_D hm).1 hd
    cases i1; cases i2
    obtain ⟨_, _, i1, i2, -, rfl⟩ := (g.plan_D hm).1 hdp
    cases i1; cases i2
    obtain ⟨rows, m, ht, hc, rfl⟩ := hr
    obtain ⟨rows', m', ht', hc', e5⟩ := hr'
    rcases R.following u u' x x2 rows rows' m m' (hint hne) ht ht' hc hc' e5 with ⟨-, h1⟩ | ⟨h1, -⟩
    · rw [g.headwaySame (hint hne) ht ht' hc hc' e5 hw]
      exact h1
    · exact absurd hF (R.not_first h1)
  · -- runs and stops
    intro j _ s p hp hpn t tp w sw hd hdp hw hsw
    obtain ⟨u, x, rows, rfl, rfl, ht, hor⟩ := g.prev.1 hp
    rcases hor with ⟨x0, m, rfl, hc⟩ | ⟨rfl, -⟩
    · obtain ⟨_, _, i1, i2, -, rfl⟩ := (g.plan_D hm).1 hd
      cases i1; cases i2
      obtain ⟨_, _, i1, i2, hlv, rfl⟩ := (g.plan_D hm).1 hdp
      cases i1; cases i2
      rw [g.passTime ht hc hw]
      obtain ⟨row, hrow⟩ := id hlv
      have h1 := g.stop _ _ _ hrow
      obtain ⟨rows2, ht2, hq, hqs, -⟩ := hrow
      cases ht.unique ht2
      unfold Stop at h1 hsw
      rw [hsw] at h1
      cases h1
      exact R.runs u x0 x rows m row ht hc hq hqs hlv
    · exact absurd rfl hpn
  · -- opposite trains
    intro e he p hp hs
    obtain ⟨x, x2, t, t', e1, rfl, bl, hbl, ⟨rows, m, ht, hc, e3⟩, rows', m', ht', hc', e4⟩ :=
      g.josingle_mem he hp
    rw [e1]
    have hne : t ≠ t' := by
      rintro rfl
      cases ht.unique ht'
      exact consecutive_asymm (g.data.trains.table ht).1 hc hc'
    have hsame : m.map (·.path) = (m'.map (·.path)).reverse := by rw [← e4, ← e3, List.reverse_reverse]
    have hmne : m ≠ [] := by
      rintro rfl
      exact hbl e3
    have hR := R.opposite t t' x x2 rows rows' m m' (stockNe ht ht' hne hs) ht ht' hc hc' hsame hmne
    constructor
    · intro hF a b w hd hdp hw
      obtain ⟨_, _, i1, i2, -, rfl⟩ := (g.plan_D hm).1 hd
      cases i1; cases i2
      obtain ⟨_, _, i1, i2, -, rfl⟩ := (g.plan_D hm).1 hdp
      cases i1; cases i2
      rcases hR with ⟨-, h1⟩ | ⟨h1, -⟩
      · rw [g.passTime ht hc hw]
        exact h1
      · exact absurd hF (R.not_against h1)
    · intro hF a b w hd hdp hw
      obtain ⟨_, _, i1, i2, -, rfl⟩ := (g.plan_D hm).1 hd
      cases i1; cases i2
      obtain ⟨_, _, i1, i2, -, rfl⟩ := (g.plan_D hm).1 hdp
      cases i1; cases i2
      rcases hR with ⟨h1, -⟩ | ⟨-, h1⟩
      · exact absurd hF (R.not_against h1)
      · rw [g.passTime ht' hc' hw]
        exact h1
  · -- tracks
    intro e he gr hgr j jp hsub hs
    have hj : j ∈ gr := hsub.subset (by simp)
    have hjp : jp ∈ gr := hsub.subset (by simp)
    obtain ⟨x, t, t', rows, rows', q, q', e1, rfl, rfl, ht, ht', hq, hq', hqs, hqs', hqq, hx, hbl⟩ :=
      g.jtrack_share he hgr hj hjp
    obtain ⟨x', l, e2, rfl, hls, -⟩ := g.jtrack_mem he hgr
    have hsub' := (map_sublist_int hsub).trans hls
    have hne : t ≠ t' := sublist_int_ne G.trains.keys hsub'
    rw [e1]
    have hST : ShareTrack td t t' x q q' :=
      ⟨hne, stockNe ht ht' hne hs, ⟨rows, ht, hq⟩, ⟨rows', ht', hq'⟩, hqs, hqs', hqq, hx, hbl⟩
    have goes : ∀ {u : Int}, ¬ TrackExempt ts (.str x) (.int u) → GoesOnFrom td st u x := by
      intro u hu n hn hin
      obtain ⟨d, hd, hget⟩ := (g.skips (.int u) (.str n)).2 ⟨u, n, rfl, rfl, hn⟩
      exact hu ⟨d, n, x, hd, hget, rfl, hin⟩
    have cont : ∀ {u : Int}, GoesOnFrom td st u x → ∀ k, ¬ ContinuedBy ts (.int u) (.str x) k := by
      intro u hu k hk
      obtain ⟨_, _, _, i1, i2, -, he⟩ := g.continued hm hk
      cases i1; cases i2
      exact hu x he (List.infix_refl _)
    have hR := R.tracks t t' x q q' hST
    have hres : ∀ {res : ℚ}, ExtraRes ts tt (.str x) res → res = 0 := by
      rintro res (⟨⟨l, hl, -⟩, -⟩ | ⟨-, h0⟩)
      · rw [g.noAdd] at hl; cases hl
      · exact h0
    have agree : ∀ {a b : Prop} {F G : Prop}, (a → F) → (b → ¬ F) → (a → G) → (b → ¬ G) → (a ∨ b) →
        (F ↔ G) := by
      intros; tauto
    refine ⟨fun hex => ⟨?_, fun k hk => absurd hk (cont (goes hex) k), ?_⟩,
      fun hex => ⟨fun k hk => absurd hk (cont (goes hex) k), ?_⟩⟩
    · -- order
      intro sp d hsp hd _ _
      obtain ⟨u, y1, rows1, i1, i2, ht1, hor⟩ := g.prev.1 hsp
      cases i1; cases i2
      cases ht.unique ht1
      rcases hor with ⟨x0, m, rfl, hc⟩ | ⟨rfl, -⟩
      · have same : (π.first t t' x ∧ π.first t t' x0) ∨ (π.first t' t x ∧ π.first t' t x0) →
            ((π.plan ts tt).F3 (.int t) (.int t') (.str x) ↔
              (π.plan ts tt).F3 (.int t) (.int t') (.str x0)) :=
          agree (fun h => TablePlan.is_first h.1) (fun h => R.not_first h.1)
            (fun h => TablePlan.is_first h.2) fun h => R.not_first h.2
        obtain ⟨pp, hpp⟩ := g.prev_exists ht' ⟨q', hq', hqs'⟩
        obtain ⟨u, y1, rows1, i1, i2, ht1, hor⟩ := g.prev.1 hpp
        cases i1; cases i2
        cases ht'.unique ht1
        rcases hor with ⟨x0', m', rfl, hc'⟩ | ⟨rfl, row', hf⟩
        · rw [g.mayOvertake hl hne ht ht' hc hc']
          refine ⟨fun hno _ _ => ?_, fun hmo hent => ?_⟩
          · have hno' : x0 = x0' ∧ m.map (·.path) = m'.map (·.path) := by
              by_contra h'
              exact hno fun e1 e2 => h' ⟨e1, e2⟩
            obtain ⟨rfl, hsame⟩ := hno'
            exact same (R.order t t' x0 x q q' rows rows' m m' hsub' hST (goes hex) ht ht' hc hc' hsame)
          · have hsw : ShareSwitch td table t t' x "in" "in" := by
              obtain ⟨l', hl', pr, hpr, ha, ha'⟩ := hent
              have hmem := Dict.mem_of_get? hl'
              obtain ⟨x', u, u', b, b', -, -, j1, rfl, -⟩ := g.jswitch_mem hmem hpr
              by_cases hu : u = t
              · subst hu
                rw [get?_pair_fst] at ha; cases ha
                by_cases hu' : u' = t'
                · subst hu'
                  rw [get?_pair_snd hne] at ha'; cases ha'
                  obtain ⟨_, _, _, k1, k2, k3, hsw⟩ := g.jswitch_share hm hcells hmem hpr hs
                  cases k1; cases k2; cases k3
                  exact hsw
                · simp [Dict.get?, hne, hu'] at ha'
              · by_cases hu' : u' = t
                · subst hu'
                  rw [get?_pair_snd hu] at ha; cases ha
                  by_cases hu2 : u = t'
                  · subst hu2
                    rw [get?_pair_fst] at ha'; cases ha'
                    obtain ⟨_, _, _, k1, k2, k3, hsw⟩ := g.jswitch_share hm hcells hmem hpr
                      fun h => hs ⟨h.1.symm, by obtain ⟨-, e, he, h⟩ := h; exact ⟨e, he, h.symm⟩⟩
                    cases k1; cases k2; cases k3
                    exact hsw.symm
                  · simp [Dict.get?, hu2, hne] at ha'
                · simp [Dict.get?, hu, hu'] at ha
            exact agree (fun h => TablePlan.is_enters h.1) (fun h => R.not_enters h.1)
              (fun h => TablePlan.is_first h.2) (fun h => R.not_first h.2)
              (R.orderIn t t' x0 x0' x q q' rows rows' m m' hsub' hST (goes hex) ht ht' hc hc' hmo hsw)
        · refine ⟨fun _ _ ⟨v, hv⟩ => ?_, fun hmo => ?_⟩
          · obtain ⟨_, k1, hcon⟩ := g.stored hm hl hcells hy hv hs hne
            cases k1
            exact same (R.orderBegins t t' x0 x q q' rows rows' m row' hsub' hST (goes hex) ht ht' hc hf
              hcon)
          · obtain ⟨-, _, pq, -, h2, -, h4, -⟩ := hmo
            exact absurd (prevOf_unique h2 hpp) h4
      · obtain ⟨dd, -, hJ⟩ := g.Jd
        rw [hJ] at hd
        obtain ⟨k, v, hk, -⟩ := get?_map_some strKey_inj _ hd
        cases hk
    · intro _ hF a b res hd ha hres'
      rw [hres hres', add_zero]
      obtain ⟨_, _, i1, i2, -, rfl⟩ := (g.plan_D hm).1 hd
      cases i1; cases i2
      rcases hR with ⟨h1, -⟩ | ⟨-, h1⟩
      · exact absurd hF (R.not_first h1)
      · exact h1 (goes hex) b (Gen.arrives_comes G h hm ha)
    · intro _ hF a b res hd ha hres'
      rw [hres hres', add_zero]
      obtain ⟨_, _, i1, i2, -, rfl⟩ := (g.plan_D hm).1 hd
      cases i1; cases i2
      rcases hR with ⟨-, h1⟩ | ⟨h1, -⟩
      · exact h1 (goes hex) b (Gen.arrives_comes G h hm ha)
      · exact absurd hF (R.not_first h1)
  · -- rolling stock
    intro e he q hq p hp a b w pr hd hdp hw hpr
    obtain ⟨j, j'⟩ := q
    obtain ⟨x, t, t', e1, e2, e3, hh⟩ := (g.round_iff hm).1
      ⟨e.2, Dict.get?_of_mem g.jround_nodup he, hq⟩
    subst e2 e3
    rw [e1] at hp hdp hw hpr
    obtain ⟨_, _, rows, i1, i2, ht, hor⟩ := g.prev.1 hp
    cases i1; cases i2
    obtain ⟨_, _, i1, i2, -, rfl⟩ := (g.plan_D hm).1 hdp
    cases i1; cases i2
    obtain ⟨_, _, i1, i2, -, rfl⟩ := (g.plan_D hm).1 hd
    cases i1
    rcases hor with ⟨x0, m, rfl, hc⟩ | ⟨rfl, -⟩
    · cases i2
      simp only at hw
      rw [g.passTime ht hc hw]
      obtain ⟨bl, hmeet, hbl⟩ := hh.2.2.1
      obtain ⟨rows', row, ht', hhead, hrs⟩ := g.starts_leaves hmeet.2 hbl
      obtain ⟨v, hv⟩ := hta t t' bl (hh.2.2.2.imp id And.left) hmeet rows' row ht' hhead
      have h2 := g.prep t' x row v hrs hv
      unfold Prep at h2 hpr
      simp only at hpr
      rw [hpr] at h2
      cases h2
      exact R.stock t t' _ x rows rows' m row _ hh ht ht' hc hhead hv
    · cases i2

/-- If a train goes first over switches where one of two trains leaves and the other one comes, it goes one
minute before, except for the time in `e`: station, trains, the stations that they left. -/
def CrossWithin (td : Trains) (table : List PathRow) (r : Int) (π : TablePlan)
    (e : String → Int → Int → String → String → ℚ) : Prop :=
  ∀ t t' p x rows m, ShareSwitch td table t t' x "out" "in" → TableOf td t' rows →
    Consecutive rows p x m →
    (π.against t t' x p ∧ π.dep t x + 1 ≤ π.dep t' p + roundIf r (timesOf m).sum + e x t t' x p) ∨
    (π.against t' t p x ∧ π.dep t' p + roundIf r (timesOf m).sum + 1 ≤ π.dep t x + e x t' t p x)

/-- the rules for switches, with the time in `e` -/
theorem TableRulesCore.switch_within (G : GoodData td st) (hm : AllMeet td) (hl : LinesClear td)
    (h : makeInput td st table t1 r delays = .ok (ts, tt)) {π : TablePlan}
    (R : TableRulesCore td st table t1 r delays dmax cat π)
    {e : String → Int → Int → String → String → ℚ} (hX : CrossWithin td table r π e) {x a a' : String} {t t' : Int}
    {p pp : Val} {m mp : ℚ} (hsw : ShareSwitch td table t t' x a a')
    (h1 : SwitchMoment ts tt ((π.plan ts tt).D ts tt) (.str x) (.int t) a p m)
    (h2 : SwitchMoment ts tt ((π.plan ts tt).D ts tt) (.str x) (.int t') a' pp mp)
    (hF : SwitchFirst ts (π.plan ts tt).F3 (π.plan ts tt).F4 (π.plan ts tt).FI (.str x) (.int t) p
      (.int t') pp) :
    m + 1 ≤ mp ∨ ∃ y y', p = .str y ∧ pp = .str y' ∧ m + 1 ≤ mp + e x t t' y y' := by
  have g := gen_of_input G h
  have come : ∀ {u : Int} {p : Val} {m : ℚ}, (PrevOf ts (.int u) (.str x) p ∧ ∃ d w,
      (π.plan ts tt).D ts tt (.int u) p d ∧ Pass tt (.int u) p (.str x) w ∧ m = d + w) →
      ∃ x0 rows l, p = .str x0 ∧ TableOf td u rows ∧ Consecutive rows x0 x l ∧
        m = π.dep u x0 + roundIf r (timesOf l).sum := by
    rintro u p m ⟨hp, d, w, hd, hw, rfl⟩
    obtain ⟨_, _, rows, i1, i2, ht, hor⟩ := g.prev.1 hp
    cases i1; cases i2
    obtain ⟨_, _, i1, i2, -, rfl⟩ := (g.plan_D hm).1 hd
    cases i1
    rcases hor with ⟨x0, m, rfl, hc⟩ | ⟨rfl, -⟩
    · cases i2
      exact ⟨_, rows, m, rfl, ht, hc, by rw [g.passTime ht hc hw]⟩
    · cases i2
  rcases h1 with ⟨rfl, rfl, h1⟩ | ⟨rfl, h1⟩
  · obtain ⟨_, _, i1, i2, -, rfl⟩ := (g.plan_D hm).1 h1
    cases i1; cases i2
    rcases h2 with ⟨rfl, rfl, h2⟩ | ⟨rfl, h2⟩
    · obtain ⟨_, _, i1, i2, -, rfl⟩ := (g.plan_D hm).1 h2
      cases i1; cases i2
      have hF3 : (π.plan ts tt).F3 (.int t) (.int t') (.str x) := by
        rcases hF with ⟨-, h, -⟩ | ⟨-, -, h⟩ | ⟨h, -⟩ | ⟨h, -⟩
        · exact absurd rfl h
        · exact h
        · exact absurd rfl h
        · exact absurd rfl h
      rcases R.bothLeave t t' x hsw with ⟨-, h⟩ | ⟨h, -⟩
      · exact .inl h
      · exact absurd hF3 (R.not_first h)
    · obtain ⟨x0, rows, l, rfl, ht, hc, rfl⟩ := come h2
      have hx : x0 ≠ x := consecutive_ne (g.data.trains.table ht).1 hc
      have hF4 : (π.plan ts tt).F4 (.int t) (.int t') (.str x) (.str x0) := by
        rcases hF with ⟨h, -⟩ | ⟨h, -⟩ | ⟨-, -, h⟩ | ⟨-, h, -⟩
        · exact absurd (by cases h; rfl) hx
        · exact absurd (by cases h; rfl) hx
        · exact h
        · exact absurd rfl h
      rcases hX t t' x0 x rows l hsw ht hc with ⟨-, h⟩ | ⟨h, -⟩
      · exact .inr ⟨_, _, rfl, rfl, h⟩
      · exact absurd hF4 (R.not_against h)
  · obtain ⟨x0, rows, l, rfl, ht, hc, rfl⟩ := come h1
    have hx : x0 ≠ x := consecutive_ne (g.data.trains.table ht).1 hc
    rcases h2 with ⟨rfl, rfl, h2⟩ | ⟨rfl, h2⟩
    · obtain ⟨_, _, i1, i2, -, rfl⟩ := (g.plan_D hm).1 h2
      cases i1; cases i2
      have hF4 : (π.plan ts tt).F4 (.int t) (.int t') (.str x0) (.str x) := by
        rcases hF with ⟨h, -⟩ | ⟨h, -⟩ | ⟨-, -, h⟩ | ⟨-, -, h, -⟩
        · exact absurd (by cases h; rfl) hx
        · exact absurd (by cases h; rfl) hx
        · exact h
        · exact absurd rfl h
      rcases hX t' t x0 x rows l hsw.symm ht hc with ⟨h, -⟩ | ⟨-, h⟩
      · exact absurd hF4 (R.not_against h)
      · exact .inr ⟨_, _, rfl, rfl, h⟩
    · obtain ⟨x0', rows', l', rfl, ht', hc', rfl⟩ := come h2
      have hx' : x0' ≠ x := consecutive_ne (g.data.trains.table ht').1 hc'
      have hv : ∀ {y z : String}, y ≠ z → Val.str y ≠ .str z := fun h e => h (by cases e; rfl)
      by_cases hsame : x0 = x0' ∧ l.map (·.path) = l'.map (·.path)
      · obtain ⟨rfl, hsame⟩ := hsame
        have hno : ¬ MayOvertake ts (.int t) (.int t') (.str x) := by
          rw [g.mayOvertake hl hsw.other ht ht' hc hc']
          exact fun h => h rfl hsame
        have hF3 : (π.plan ts tt).F3 (.int t) (.int t') (.str x0) := by
          rcases hF with ⟨-, -, h, -⟩ | ⟨-, -, h⟩ | ⟨h, -⟩ | ⟨h, -⟩
          · exact absurd h hno
          · exact h
          · exact absurd rfl h
          · exact absurd rfl h
        rcases R.bothCome t t' x0 x rows rows' l l' hsw ht ht' hc hc' hsame with ⟨-, h⟩ | ⟨h, -⟩
        · exact .inl h
        · exact absurd hF3 (R.not_first h)
      · have hmo' : x0 = x0' → l.map (·.path) ≠ l'.map (·.path) := fun h1 h2 => hsame ⟨h1, h2⟩
        have hmo : MayOvertake ts (.int t) (.int t') (.str x) :=
          (g.mayOvertake hl hsw.other ht ht' hc hc').2 hmo'
        have hFI : (π.plan ts tt).FI (.int t) (.int t') (.str x) := by
          rcases hF with ⟨-, -, -, h⟩ | ⟨-, h | h, -⟩ | ⟨-, h | h, -⟩ | ⟨-, -, -, h⟩
          · exact h
          · exact absurd h (hv hx)
          · exact absurd hmo h
          · exact absurd h.symm (hv hx)
          · exact absurd h.symm (hv hx')
          · exact h
        rcases R.bothComeApart t t' x0 x0' x rows rows' l l' hsw ht ht' hc hc' hmo' with
          ⟨-, h⟩ | ⟨h, -⟩
        · exact .inl h
        · exact absurd hFI (R.not_enters h)

/-- the rules of the tables are the rules of the problem -/
theorem TableRules.allRules (G : GoodData td st) (hm : AllMeet td) (hta : TurnaroundOK td)
    (hl : LinesClear td) (hcells : SameCells table) (h : makeInput td st table t1 r delays = .ok (ts, tt))
    {π : TablePlan} (R : TableRules td st table t1 r delays dmax cat π) {y : OrderVars}
    (hy : orderVariables ts = .ok y) :
    AllRules ts tt ((π.plan ts tt).D ts tt) y (π.plan ts tt).F3 (π.plan ts tt).F4
      (π.plan ts tt).FI := by
  have g := gen_of_input G h
  obtain ⟨k1, k2, k3, k4, k5⟩ := R.toTableRulesCore.otherRules G hm hta hl hcells h hy
  refine ⟨k1, k2, k3, k4, k5, ?_⟩
  rintro e he _ hp j a jp a' rfl hs p m pp mp res hM hM' hres
  obtain ⟨x, t, t', e1, rfl, rfl, hsw⟩ := g.jswitch_share hm hcells he hp hs
  rw [e1] at hM hM' ⊢
  have hres1 : res = 1 := by
    have := g.res
    unfold Res at hres
    rw [this] at hres
    cases hres
    rfl
  subst hres1
  have hX : CrossWithin td table r π fun _ _ _ _ _ => 0 := by
    simpa only [CrossWithin, add_zero] using R.cross
  have d1 := R.toTableRulesCore.switch_within G hm hl h hX hsw hM hM'
  have d2 := R.toTableRulesCore.switch_within G hm hl h hX hsw.symm hM' hM
  simp only [add_zero] at d1 d2
  exact ⟨fun hF => (d1 hF).elim id fun ⟨_, _, _, _, q⟩ => q, fun hF => (d2 hF).elim id fun ⟨_, _, _, _, q⟩ => q⟩

/-- **C71**: departure times that keep the rules of the tables are a solution of the problem that is
made of the tables. -/
theorem C71_complete (G : GoodData td st) (hm : AllMeet td) (hta : TurnaroundOK td)
    (hl : LinesClear td) (hcells : SameCells table)
    (h : makeInput td st table t1 r delays = .ok (ts, tt)) (hb : buildProblem ts tt dmax cat = .ok b)
    {π : TablePlan} (R : TableRules td st table t1 r delays dmax cat π) :
    ∃ σ, Feasible b σ ∧ ∀ t x d, Departs ts tt b.dv σ (.int t) (.str x) d ↔
      Leaves td t x ∧ d = π.dep t x := by
  have g := gen_of_input G h
  have hround : RoundNames ts := by
    rintro e he ⟨j, j'⟩ hq
    obtain ⟨_, _, _, -, -, rfl, -⟩ := (g.round_iff hm).1 ⟨e.2, Dict.get?_of_mem g.jround_nodup he, hq⟩
    simp [inKey]
  obtain ⟨σ, hf, hd, -⟩ := C10_complete hb g.namesOK g.wellFormed hround (Gen.plan_valid G h R.toTableRulesCore)
    (R.allRules G hm hta hl hcells h (parts hb).hy)
  refine ⟨σ, hf, fun t x d => ?_⟩
  rw [hd, g.plan_D hm]
  constructor
  · rintro ⟨_, _, i1, i2, hlv, rfl⟩
    cases i1; cases i2
    exact ⟨hlv, rfl⟩
  · rintro ⟨hlv, rfl⟩
    exact ⟨t, x, rfl, rfl, hlv, rfl⟩

end Verif
