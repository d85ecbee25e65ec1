import Verif.Props.Optimal
import Verif.Props.Printed
import Verif.Proofs.GenNames
import Verif.Props.SafeFalse

/-!
# C75: the printed timetables of whole tables

What `print_optimisation_results` writes for the problem of the generated input, told by the
timetables of the trains and the departures of the plan. The script optimises with rounded times and
prints with the times that are not rounded (`/repo/solve_real_problem.py`, lines 117-126).
-/

namespace Verif

variable {td : Trains} {st : Stations} {table : List PathRow} {t1 : String}
  {delays : List (Int × ℚ)} {ts : TrainSets} {tt : Timetable} {dmax : ℚ} {b : Built}
  {σ : LpVar → ℚ} {pass0 : Dict String ℚ} {skip : Dict Val Val} {tref : ℤ}

/-- The delays of the train are found in the problem: it is not taken for a shunting train, or it
leaves two stations, or it takes over the rolling stock of another train, unless it leaves later than
that train delayed by `d_max` allows. -/
def Shown (td : Trains) (st : Stations) (t1 : String) (delays : List (Int × ℚ)) (dmax : ℚ) (t : Int) :
    Prop :=
  ¬ TakenForShunting td t ∨ (∃ x y, x ≠ y ∧ Leaves td t x ∧ Leaves td t y) ∨
  ∃ t0 x p rows0 rows m q v e0 e, HandsOn td st t0 t x ∧ TableOf td t0 rows0 ∧ TableOf td t rows ∧
    Consecutive rows0 p x m ∧ StopRow td t x q ∧ q.turnaround = some v ∧
    Earliest rows0 t1 1 (addedDelay delays t0) p e0 ∧ Earliest rows t1 1 (addedDelay delays t) x e ∧
    e < e0 + roundIf 1 (timesOf m).sum + v + dmax

/-- The printed schedule of train `t`, whose timetable is `rows`, for a plan with departures `dep`; all
times in minutes, `tref` is the time from which the departures are counted. -/
structure PrintedPlan (td : Trains) (st : Stations) (t1 : String) (delays : List (Int × ℚ)) (dmax : ℚ)
    (dep : Int → String → ℚ) (tref : ℤ) (t : Int) (rows : List Row) (sch : Dict Val Printed) :
    Prop where
  /-- no arrival at the first station -/
  first : ∀ x q row, FirstStation rows x q → Dict.get? sch (.str x) = some row →
    row.arrive = none ∧ row.conflictedArrive = none
  /-- the arrival is the departure from the station before and the time of the run; the conflicted
  arrival is the same for the earliest departure -/
  arrives : ∀ p x m row, Consecutive rows p x m → Dict.get? sch (.str x) = some row →
    ∃ a c e, row.arrive = some a ∧ row.conflictedArrive = some c ∧
      Earliest rows t1 1 (addedDelay delays t) p e ∧
      (a : ℚ) = tref + (dep t p + roundIf 1 (timesOf m).sum) ∧
      (c : ℚ) = tref + (e + roundIf 1 (timesOf m).sum)
  /-- departure, secondary delay, conflicted departure -/
  departs : ∀ x row, Leaves td t x → Dict.get? sch (.str x) = some row →
    ∃ d c s e, row.departure = some d ∧ row.conflictedDeparture = some c ∧
      row.secondaryDelay = some s ∧ Earliest rows t1 1 (addedDelay delays t) x e ∧
      (d : ℚ) = tref + dep t x ∧ (c : ℚ) = tref + e ∧ (s : ℚ) = dep t x - e
  /-- the part of the objective -/
  impact : ∀ x row, Leaves td t x → Dict.get? sch (.str x) = some row →
    (LastLeft td t x → ∃ c, CountedDelay td t1 1 delays dep t c ∧ row.impact = some (c / dmax)) ∧
    (¬ LastLeft td t x → row.impact = some 0)
  /-- at the station where the train ends nothing but the arrival -/
  ends : ∀ x row, EndsIn td st t x → Dict.get? sch (.str x) = some row →
    row.departure = none ∧ row.secondaryDelay = none ∧ row.conflictedDeparture = none ∧
      row.impact = none

/-! ## The loops -/

section Loop
variable {p : Problem} {pass : Dict String ℚ}

theorem printTrain_keys {j : Val} {path : List Val} (hpath : Dict.get? ts.paths j = some path)
    (hnd : path.Nodup) {sch : Dict Val Printed}
    (h : printTrain p ts tt pass skip dmax tref σ j = .ok sch) : Dict.keys sch = path := by
  unfold printTrain at h
  rw [Dict.at!_ok.2 hpath] at h
  simp only [bind, Except.bind] at h
  have key : ∀ (l : List Val) (acc acc' : PrintState), l.Nodup → (∀ x ∈ l, x ∉ Dict.keys acc.sched) →
      loop l (printStep p ts tt pass skip dmax tref σ j) acc = .ok acc' →
      Dict.keys acc'.sched = Dict.keys acc.sched ++ l := by
    intro l
    induction l with
    | nil => intro acc acc' _ _ h; cases h; simp
    | cons x l ih =>
      intro acc acc' hnd hx h
      simp only [loop] at h
      cases h2 : printStep p ts tt pass skip dmax tref σ j acc x with
      | error e => rw [h2] at h; cases h
      | ok a =>
        rw [h2] at h
        have hk : Dict.keys a.sched = Dict.keys acc.sched ++ [x] := by
          have : ∃ row, a.sched = Dict.set acc.sched x row := by
            rcases printStep_ok h2 with ⟨-, e⟩ | ⟨-, _, _, -, -, e⟩ <;> rw [e] <;> exact ⟨_, rfl⟩
          obtain ⟨row, e⟩ := this
          rw [e, Dict.keys_set, if_neg (by
            have := hx x (by simp)
            simpa using this)]
        rw [ih a acc' (List.nodup_cons.1 hnd).2 ?_ h, hk]
        · simp
        · intro y hy hm
          rw [hk] at hm
          rcases List.mem_append.1 hm with hm | hm
          · exact hx y (by simp [hy]) hm
          · rw [List.mem_singleton] at hm
            subst hm
            exact (List.nodup_cons.1 hnd).1 hy
  cases hl : loop path (printStep p ts tt pass skip dmax tref σ j) ⟨.int 0, 0, 0, []⟩ with
  | error e => rw [hl] at h; cases h
  | ok a =>
    rw [hl] at h
    cases h
    have := key path _ a hnd (by simp [Dict.keys]) hl
    simpa [Dict.keys] using this

/-- the row of the first station -/
theorem printTrain_first {j s : Val} {r : List Val}
    (hpath : Dict.get? ts.paths j = some (s :: r)) (hnd : (s :: r).Nodup) {sch : Dict Val Printed}
    (h : printTrain p ts tt pass skip dmax tref σ j = .ok sch) :
    ∃ row, Dict.get? sch s = some row ∧
      ((Dict.get? skip j = some s ∧ row = printArrive pass tref j s ⟨.int 0, 0, 0, []⟩) ∨
       (Dict.get? skip j ≠ some s ∧ rowAt p ts tt pass dmax tref σ j s ⟨.int 0, 0, 0, []⟩ row)) := by
  unfold printTrain at h
  rw [Dict.at!_ok.2 hpath] at h
  simp only [bind, Except.bind, loop] at h
  cases h2 : printStep p ts tt pass skip dmax tref σ j ⟨.int 0, 0, 0, []⟩ s with
  | error e => rw [h2] at h; cases h
  | ok a =>
    rw [h2] at h
    simp only at h
    cases h3 : loop r (printStep p ts tt pass skip dmax tref σ j) a with
    | error e => rw [h3] at h; cases h
    | ok a' =>
      rw [h3] at h
      cases h
      have hk := print_keep h3 (List.nodup_cons.1 hnd).1
      rcases printStep_ok h2 with ⟨hs, h4⟩ | ⟨hs, delta, x, hi, hx, h4⟩
      · exact ⟨_, by rw [hk, h4]; simp only [Dict.get?_set, if_true], .inl ⟨hs, rfl⟩⟩
      · exact ⟨_, by rw [hk, h4]; simp only [Dict.get?_set, if_true],
          .inr ⟨hs, delta, x, hi, hx, rfl⟩⟩

theorem printTrain_runs {j : Val} {path : List Val} (hpath : Dict.get? ts.paths j = some path)
    (h : ∀ s ∈ path, Dict.get? skip j ≠ some s →
      (∃ d, impactToObjective p tt σ j s dmax = .ok d) ∧
      ∃ x, delayAndActualTime ts tt p σ j s = .ok x) :
    ∃ sch, printTrain p ts tt pass skip dmax tref σ j = .ok sch := by
  unfold printTrain
  rw [Dict.at!_ok.2 hpath]
  simp only [bind, Except.bind]
  obtain ⟨a, ha⟩ := loop_succeeds (xs := path) (f := printStep p ts tt pass skip dmax tref σ j)
    (fun acc s hs => by
      unfold printStep
      by_cases hk : Dict.get? skip j = some s
      · rw [if_pos hk]; exact ⟨_, rfl⟩
      · rw [if_neg hk]
        obtain ⟨⟨d, hd⟩, x, hx⟩ := h s hs hk
        rw [hd, hx]
        exact ⟨_, rfl⟩) ⟨.int 0, 0, 0, []⟩
  rw [ha]
  exact ⟨_, rfl⟩

theorem print_keys {d : Dict Val (Dict Val Printed)} (hnd : ts.J.Nodup)
    (h : printOptimisationResults p ts tt pass skip dmax tref σ = .ok d) : Dict.keys d = ts.J := by
  unfold printOptimisationResults at h
  have key : ∀ (l : List Val) (a a' : Dict Val (Dict Val Printed)), l.Nodup →
      (∀ x ∈ l, x ∉ Dict.keys a) →
      loop l (fun d j => do
        let x ← printTrain p ts tt pass skip dmax tref σ j
        .ok (Dict.set d j x)) a = .ok a' →
      Dict.keys a' = Dict.keys a ++ l := by
    intro l
    induction l with
    | nil => intro a a' _ _ h; cases h; simp
    | cons x l ih =>
      intro a a' hnd hx h
      simp only [loop] at h
      cases h2 : printTrain p ts tt pass skip dmax tref σ x with
      | error e => rw [h2] at h; cases h
      | ok y =>
        rw [h2] at h
        simp only [bind, Except.bind] at h
        have hk : Dict.keys (Dict.set a x y) = Dict.keys a ++ [x] := by
          rw [Dict.keys_set, if_neg (by have := hx x (by simp); simpa using this)]
        rw [ih _ a' (List.nodup_cons.1 hnd).2 ?_ h, hk]
        · simp
        · intro z hz hm
          rw [hk] at hm
          rcases List.mem_append.1 hm with hm | hm
          · exact hx z (by simp [hz]) hm
          · rw [List.mem_singleton] at hm
            subst hm
            exact (List.nodup_cons.1 hnd).1 hz
  have := key ts.J [] d hnd (by simp [Dict.keys]) h
  simpa [Dict.keys] using this

end Loop

/-! ## The delays are found -/

/-- the delays in a rolling-stock constraint are variables of the problem -/
theorem circ_occurs {cat : Cat} (hb : buildProblem ts tt dmax cat = .ok b)
    {s j jp p : Val} {ps : List (Val × Val)}
    (hJ : Dict.get? ts.Jround s = some ps) (hp : (j, jp) ∈ ps) (hprev : PrevOf ts j s p)
    {l rhs w pr : ℚ} (hl : earliestDepTime ts.paths tt j p = .ok l)
    (hr : earliestDepTime ts.paths tt jp s = .ok rhs) (hw : Pass tt j p s w) (hpr : Prep tt jp s pr)
    (hlt : rhs < l + w + pr + dmax) {v : LpVar} (hv : delayAt b.dv jp s = .ok v) :
    v ∈ b.prob.vars := by
  obtain ⟨c1, c2, c3, c4, c5, c6, _, _, _, _, h5, _, he, _⟩ := built_constraints hb
  unfold rollingStockCirc at h5
  obtain ⟨a, ha, hsub⟩ := (collect_ok h5).1 _ (Dict.mem_of_get? hJ)
  obtain ⟨a', ha', hsub'⟩ := (collect_ok ha).1 _ hp
  obtain ⟨path, hpath, hpo⟩ := prevOf_iff.1 hprev
  unfold circBody at ha'
  simp only [hpath, hpo, hl, hr, tauPass_ok.2 hw, tauPrep_ok.2 hpr, bind, Except.bind, if_pos hlt,
    hv] at ha'
  cases hd : delayAt b.dv j p with
  | error e => rw [hd] at ha'; cases ha'
  | ok vl =>
    rw [hd] at ha'
    simp only at ha'
    cases ha'
    have hin := hsub _ (hsub' _ (List.mem_singleton.2 rfl))
    have hin' := List.mem_map_of_mem (f := fun nc : Named => (sanitize nc.1, nc.2)) hin
    rw [mem_vars]
    right
    refine ⟨_, by
      rw [he, List.map_append, List.map_append]
      exact List.mem_append_left _ (List.mem_append_right _ hin'), ?_⟩
    simp [Constraint.mkGE, occursIn_sub, occursIn_add, occursIn_var]

theorem cleanNames_generated (G : GoodData td st) (hn : NamesClear td st)
    (h : makeInput td st table t1 1 delays = .ok (ts, tt)) : CleanNames ts := by
  have g := gen_of_input G h
  have key : ∀ c ∈ Calls ts, ∃ t rows x, c = (.int t, .str x) ∧ TableOf td t rows ∧ Serves rows x := by
    rintro ⟨j, s⟩ hc
    obtain ⟨-, path, hp, hs⟩ := mem_calls.1 hc
    obtain ⟨t, rows, rfl, ht, rfl⟩ := g.path.1 hp
    obtain ⟨x, hx, rfl⟩ := List.mem_map.1 hs
    exact ⟨t, rows, x, rfl, ht, mem_stations.1 hx⟩
  constructor
  · intro c hc
    obtain ⟨t, rows, x, rfl, ht, hx⟩ := key c hc
    have hcl : ∀ v : Val, Plain v → Legal v.render → Clean v := by
      intro v h1 h2 ch hch hb
      by_cases he : ch = '_'
      · subst he; exact h1 hch
      · exact h2 ch hch (by simp only [badChars, List.mem_cons] at hb ⊢; tauto)
    have i1 := hn.train ht
    obtain ⟨y, hy, i2, i3, -⟩ := hn.station G ht hx
    cases hy
    exact ⟨hcl _ i1.plain i1.legal, hcl _ i2 i3⟩
  · intro c hc c' hc' he
    obtain ⟨t, rows, x, rfl, ht, hx⟩ := key c hc
    obtain ⟨t', rows', x', rfl, ht', hx'⟩ := key c' hc'
    simp only at he ⊢
    exact congrArg Val.int (Int.repr_injective he)
  · intro c hc c' hc' he
    obtain ⟨t, rows, x, rfl, ht, hx⟩ := key c hc
    obtain ⟨t', rows', x', rfl, ht', hx'⟩ := key c' hc'
    exact congrArg Val.str he


theorem minutes_int {x y : String} {v : ℚ} (h : MinutesFrom x y v) : IsInt v := by
  obtain ⟨h1, m1, h2, m2, -, -, rfl⟩ := h
  exact ⟨((60 * h2 + m2 : Nat) : ℤ) - ((60 * h1 + m1 : Nat) : ℤ), by push_cast; ring⟩

theorem roundIf_int (q : ℚ) : IsInt (roundIf 1 q) := ⟨pyRound q, by simp [roundIf]⟩

theorem Later.int {rows : List Row} {x : String} {u e : ℚ} (h : Later rows t1 x u e) (hu : IsInt u) :
    IsInt e := by
  rcases h with ⟨dep, v, -, hv, rfl⟩ | ⟨-, rfl⟩
  · exact (minutes_int hv).max hu
  · exact hu

theorem Earliest.int {rows : List Row} {a : ℚ} (ha : IsInt a) {x : String} {e : ℚ}
    (h : Earliest rows t1 1 a x e) : IsInt e := by
  induction h with
  | first hf hv hl =>
    refine hl.int (IsInt.add ?_ ha)
    rcases hv with ⟨d, -, hv⟩ | ⟨-, d, -, hv⟩ | ⟨-, -, rfl⟩
    · exact minutes_int hv
    · exact minutes_int hv
    · exact isInt_zero
  | next hc hq hs _ hl ih => exact hl.int ((ih.add (roundIf_int _)).add (roundIf_int _))

theorem addedDelay_int (h : ∀ d ∈ delays, IsInt d.2) (t : Int) : IsInt (addedDelay delays t) := by
  unfold addedDelay
  induction delays with
  | nil => simpa using isInt_zero
  | cons d ds ih =>
    have ih := ih fun x hx => h x (List.mem_cons_of_mem _ hx)
    rw [List.filter_cons]
    split
    · rw [List.map_cons, List.sum_cons]
      exact (h d (by simp)).add ih
    · exact ih

section Main
variable (G : GoodData td st) (hm : AllMeet td)
  (h : makeInput td st table t1 1 delays = .ok (ts, tt))
include G hm h

omit hm in
/-- a train that leaves two stations leaves the next one after the first -/
theorem next_left {t : Int} {rows : List Row} (ht : TableOf td t rows) {x y : String} {q : Row}
    (hf : FirstStation rows x q) (hy : Leaves td t y) (hne : x ≠ y) :
    ∃ x', PrevOf ts (.int t) (.str x') (.str x) ∧ Leaves td t x' := by
  have g := gen_of_input G h
  have ho := (G.trains.table ht).1
  obtain ⟨path, hp, hprev⟩ := g.prev.2 ⟨t, x, rows, rfl, rfl, ht, .inr ⟨rfl, q, hf⟩⟩
  rw [g.path_some ht] at hp
  cases hp
  rcases hprev with ⟨L, R, hl, -, -⟩ | ⟨R, hl, -⟩
  · exact absurd (by rw [hl]; simp) (none_notMem_map (trainImportantStations rows))
  obtain ⟨x0, B, hB, hx0, -⟩ := List.map_eq_cons_iff.1 hl
  cases hx0
  obtain ⟨⟨rows', ht', hs⟩, -⟩ := (leaves_iff G).1 hy
  cases ht'.unique ht
  have hyB : y ∈ B := by
    have := mem_stations.2 hs
    rw [hB] at this
    rcases List.mem_cons.1 this with rfl | this
    · exact absurd rfl hne
    · exact this
  cases B with
  | nil => cases hyB
  | cons x' B =>
    obtain ⟨mid, hc⟩ := (next_iff ho).1 ((next_split ho).2 ⟨[], B, hB⟩)
    refine ⟨x', g.prev.2 ⟨t, x', rows, rfl, rfl, ht, .inl ⟨x, mid, rfl, hc⟩⟩, ?_⟩
    rcases List.mem_cons.1 hyB with rfl | hyB
    · exact hy
    · cases B with
      | nil => cases hyB
      | cons z B =>
        obtain ⟨mid', hc'⟩ := (next_iff ho).1 ((next_split ho).2 ⟨[x], B, hB⟩)
        exact leaves_of_next G ht hc'

variable (hb : buildProblem ts tt dmax .integer = .ok b)
include hb

/-- the delays of the trains in `Shown` are variables of the problem -/
theorem shown_occurs {t : Int} (hs : Shown td st t1 delays dmax t) {x : String}
    (hx : Leaves td t x) : ∃ v, delayAt b.dv (.int t) (.str x) = .ok v ∧ v ∈ b.prob.vars := by
  have g := gen_of_input G h
  have P := parts hb
  obtain ⟨v, hv⟩ := g.delayAt hm P.hdv hx
  refine ⟨v, hv, ?_⟩
  obtain ⟨⟨rows, ht, hsv⟩, -⟩ := (leaves_iff G).1 hx
  obtain ⟨p, hp⟩ := g.prev_exists ht hsv
  by_cases hpn : p = .none
  swap
  · exact (stay_occurs hb hp hpn hv).1
  subst hpn
  have hf : ∃ q, FirstStation rows x q := by
    obtain ⟨t', x', rows', e1, e2, ht', hc⟩ := g.prev.1 hp
    cases e1; cases e2
    cases ht'.unique ht
    rcases hc with ⟨x0, mid, e, -⟩ | ⟨-, q, hq⟩
    · cases e
    · exact ⟨q, hq⟩
  obtain ⟨q, hf⟩ := hf
  have two : ∀ y, x ≠ y → Leaves td t y → v ∈ b.prob.vars := by
    intro y hne hy
    obtain ⟨x', hp', hx'⟩ := next_left G h ht hf hy hne
    obtain ⟨v', hv'⟩ := g.delayAt hm P.hdv hx'
    obtain ⟨-, vp, h1, h2⟩ := stay_occurs hb hp' (by simp) hv'
    rw [hv] at h1
    rw [Except.ok.inj h1]
    exact h2
  rcases hs with hs | ⟨y, z, hne, hy, hz⟩ | ⟨t0, y, p, rows0, rows', m, q', pr, e0, e, ho, ht0, ht', hc, hq', hpr,
    he0, he, hlt⟩
  · obtain ⟨hW, hW2⟩ := weights_input G h
    obtain ⟨y, ⟨w, hw⟩, -⟩ := hW2 t rows ht
    obtain ⟨info, rows', ty, w0, hti, hty, htw, hl, rfl⟩ := (hW _ _ _).1 hw
    by_cases hxy : x = y
    · subst hxy
      have hne : Weight tt (.int t) (.str x) ≠ 0 := by
        unfold Weight
        rw [hw]
        unfold weightOf
        simp only [hs, if_false, Option.getD_some]
        rcases htw with ⟨-, rfl⟩ | ⟨-, rfl⟩ | ⟨-, rfl⟩ <;> norm_num
      have hd := g.delay_of_leaves hm hx
      obtain ⟨v', h1, -, h2⟩ := weighted_occurs hb (mem_calls.2 ⟨hd.1, hd.2.1⟩) hne
      rw [hv] at h1
      rw [Except.ok.inj h1]
      exact h2
    · exact two y hxy (hl.leaves G)
  · by_cases hxy : x = y
    · exact two z (hxy ▸ hne) hz
    · exact two y hxy hy
  · have hy : Leaves td t y := ⟨_, hq'⟩
    by_cases hxy : x = y
    · subst hxy
      obtain ⟨ps, h1, h2⟩ := (g.round_iff hm).2 ⟨x, t0, t, rfl, rfl, rfl, ho⟩
      cases ht'.unique ht
      exact circ_occurs hb h1 h2 (g.prev.2 ⟨t0, x, rows0, rfl, rfl, ht0, .inl ⟨p, m, rfl, hc⟩⟩)
        ((C70_earliest G h ht0 (leaves_of_next G ht0 hc)).2 he0) ((C70_earliest G h ht hx).2 he)
        (g.pass t0 rows0 p x m ht0 hc) (g.prep t x q' pr hq' hpr) hlt hv
    · exact two y hxy hy

variable (hn : NamesClear td st) (h0 : dmax ≠ 0)
include hn h0

/-- what is read back about a departure -/
theorem shown_values {dep : Int → String → ℚ}
    (hdep : ∀ t x, Leaves td t x → Departs ts tt b.dv σ (.int t) (.str x) (dep t x)) {t : Int}
    {rows : List Row} (ht : TableOf td t rows)
    (hs : Shown td st t1 delays dmax t) {x : String} (hx : Leaves td t x) :
    ∃ e, Earliest rows t1 1 (addedDelay delays t) x e ∧
      delayAndActualTime ts tt b.prob σ (.int t) (.str x) = .ok (dep t x - e, dep t x, e) ∧
      impactToObjective b.prob tt σ (.int t) (.str x) dmax =
        .ok (Weight tt (.int t) (.str x) * (dep t x - e) / dmax) := by
  have g := gen_of_input G h
  have hc := cleanNames_generated G hn h
  obtain ⟨v, hv, hin⟩ := shown_occurs G hm h hb hs hx
  obtain ⟨e, v', he, hv', hd⟩ := hdep t x hx
  rw [hv] at hv'
  cases hv'
  have hd' := g.delay_of_leaves hm hx
  refine ⟨e, (C70_earliest G h ht hx).1 he, ?_, ?_⟩
  · rw [(C19_reported_partial hb hc).1 e v he hv hin, hd, add_comm (σ v) e, add_sub_cancel_left]
  · rw [(C18_impacts_partial hb hc h0 σ).2 (.int t, .str x) (mem_calls.2 ⟨hd'.1, hd'.2.1⟩) v hv, hd,
      add_sub_cancel_left]

/-- C75 for one train -/
theorem printed_train (hf : Feasible b σ) (hwhole : ∀ d ∈ delays, IsInt d.2)
    (hskip : ts.skipStation = some skip) (hpass : getTausPass td 0 = .ok pass0)
    {dep : Int → String → ℚ}
    (hdep : ∀ t x, Leaves td t x → Departs ts tt b.dv σ (.int t) (.str x) (dep t x)) {t : Int}
    {rows : List Row} (ht : TableOf td t rows) (hs : Shown td st t1 delays dmax t)
    {sch : Dict Val Printed}
    (hp : printTrain b.prob ts tt pass0 skip dmax tref σ (.int t) = .ok sch) :
    PrintedPlan td st t1 delays dmax dep tref t rows sch := by
  have g := gen_of_input G h
  have P := parts hb
  have ho := (G.trains.table ht).1
  have hpath := g.path_some ht
  have hnd : ((trainImportantStations rows).map strKey).Nodup := List.Nodup.map strKey_inj ho
  have hsk : ∀ x, Dict.get? skip (.int t) = some (.str x) ↔ EndsIn td st t x := by
    intro x
    constructor
    · intro hx
      obtain ⟨t', x', e1, e2, he⟩ := (g.skips _ _).1 ⟨skip, hskip, hx⟩
      cases e1; cases e2
      exact he
    · intro hx
      obtain ⟨d, hd, hx⟩ := (g.skips _ _).2 ⟨t, x, rfl, rfl, hx⟩
      rw [hskip] at hd
      cases hd
      exact hx
  obtain ⟨d0, hd0, hP⟩ := C35_pass td G.trains G.tableNames 0
  rw [hpass] at hd0
  cases hd0
  have hint : ∀ x, Leaves td t x → ∀ e, Earliest rows t1 1 (addedDelay delays t) x e →
      IsInt e ∧ IsInt (dep t x) := by
    intro x hx e he
    have hei := he.int (addedDelay_int hwhole t)
    refine ⟨hei, ?_⟩
    obtain ⟨e', v, he', hv, hd⟩ := hdep t x hx
    have := (C70_earliest G h ht hx).2 he
    rw [this] at he'
    cases he'
    have hdom := hf.adm.delays _ _ v hv
    rw [delayAt_ok, delayVariables_find P.hdv] at hv
    obtain ⟨-, rfl⟩ := hv
    obtain ⟨n, hnn⟩ := hdom.2.2 rfl
    rw [hd]
    exact hei.add ⟨n, hnn⟩
  -- the row of a station with a station before it, and of the first station
  have hlr : ∀ {x acc row}, Leaves td t x →
      rowAt b.prob ts tt pass0 dmax tref σ (.int t) (.str x) acc row →
      ∃ e, Earliest rows t1 1 (addedDelay delays t) x e ∧
        row = { printArrive pass0 tref (.int t) (.str x) acc with
          departure := some (tref + pyInt (dep t x))
          secondaryDelay := some (pyInt (dep t x - e))
          conflictedDeparture := some (tref + pyInt e)
          impact := some (Weight tt (.int t) (.str x) * (dep t x - e) / dmax) } := by
    rintro x acc row hx ⟨delta, y, hi, hy, rfl⟩
    obtain ⟨e, he, h1, h2⟩ := shown_values G hm h hb hn h0 hdep ht hs hx
    rw [hy] at h1
    rw [hi] at h2
    cases h1
    cases h2
    exact ⟨e, he, rfl⟩
  have hall : ∀ x row, Dict.get? sch (.str x) = some row → ∃ acc,
      ((∃ q, FirstStation rows x q) ∧ acc = (⟨.int 0, 0, 0, []⟩ : PrintState) ∨
        ∃ p m e, Consecutive rows p x m ∧ Earliest rows t1 1 (addedDelay delays t) p e ∧
          acc = ⟨.str p, dep t p, e, acc.sched⟩) ∧
      (EndsIn td st t x ∧ row = printArrive pass0 tref (.int t) (.str x) acc ∨
       Leaves td t x ∧ ∃ e, Earliest rows t1 1 (addedDelay delays t) x e ∧
        row = { printArrive pass0 tref (.int t) (.str x) acc with
          departure := some (tref + pyInt (dep t x))
          secondaryDelay := some (pyInt (dep t x - e))
          conflictedDeparture := some (tref + pyInt e)
          impact := some (Weight tt (.int t) (.str x) * (dep t x - e) / dmax) }) := by
    intro x row hrow
    have hxs : Serves rows x := by
      have : Val.str x ∈ Dict.keys sch := (Dict.get?_isSome _ _).1 (by rw [hrow]; rfl)
      rw [printTrain_keys hpath hnd hp] at this
      obtain ⟨y, hy, hy'⟩ := List.mem_map.1 this
      cases hy'
      exact mem_stations.1 hy
    obtain ⟨path, hpa, hprev⟩ | ⟨p, path, hpa, hprev⟩ : PrevOf ts (.int t) (.str x) .none ∨
        ∃ p, PrevOf ts (.int t) (.str x) (.str p) := by
      obtain ⟨p, hp⟩ := g.prev_exists ht hxs
      obtain ⟨t', x', rows', e1, e2, -, ⟨x0, -, rfl, -⟩ | ⟨rfl, -⟩⟩ := g.prev.1 hp
      · exact .inr ⟨x0, hp⟩
      · exact .inl hp
    · have hq : ∃ q, FirstStation rows x q := by
        obtain ⟨t', x', rows', e1, e2, ht', ⟨x0, mid, e, -⟩ | ⟨-, q, hq⟩⟩ := g.prev.1 ⟨path, hpa, hprev⟩
        · cases e
        · cases e1; cases e2
          cases ht'.unique ht
          exact ⟨q, hq⟩
      rw [hpath] at hpa
      cases hpa
      rcases hprev with ⟨L, R, hl, -, -⟩ | ⟨R, hl, -⟩
      · exact absurd (by rw [hl]; simp) (none_notMem_map (trainImportantStations rows))
      rw [hl] at hpath hnd
      obtain ⟨row', h1, h2⟩ := printTrain_first hpath hnd hp
      rw [hrow] at h1
      cases h1
      refine ⟨_, .inl ⟨hq, rfl⟩, ?_⟩
      rcases h2 with ⟨h2, rfl⟩ | ⟨h2, h3⟩
      · exact .inl ⟨(hsk x).1 h2, rfl⟩
      · have hx := (leaves_iff G).2 ⟨⟨rows, ht, hxs⟩, fun he => h2 ((hsk x).2 he)⟩
        exact .inr ⟨hx, hlr hx h3⟩
    · have hq : ∃ m, Consecutive rows p x m := by
        obtain ⟨t', x', rows', e1, e2, ht', ⟨x0, mid, e, hc⟩ | ⟨e, -⟩⟩ := g.prev.1 ⟨path, hpa, hprev⟩
        · cases e1; cases e2; cases e
          cases ht'.unique ht
          exact ⟨mid, hc⟩
        · cases e
      obtain ⟨m, hc⟩ := hq
      have hlp := leaves_of_next G ht hc
      rw [hpath] at hpa
      cases hpa
      rcases hprev with ⟨L, R, hl, -, -⟩ | ⟨R, -, e⟩
      swap
      · cases e
      rw [hl] at hpath hnd
      obtain ⟨xq, acc, row', hxq, h1, hacc, h2⟩ := printTrain_row hpath hnd
        (fun he => ((leaves_iff G).1 hlp).2 ((hsk p).1 he)) hp
      rw [hrow] at h1
      cases h1
      obtain ⟨e, he, h3, -⟩ := shown_values G hm h hb hn h0 hdep ht hs hlp
      rw [hxq] at h3
      cases h3
      refine ⟨acc, .inr ⟨p, m, e, hc, he, hacc⟩, ?_⟩
      rcases h2 with ⟨h2, rfl⟩ | ⟨h2, h3⟩
      · exact .inl ⟨(hsk x).1 h2, rfl⟩
      · have hx := (leaves_iff G).2 ⟨⟨rows, ht, hxs⟩, fun he => h2 ((hsk x).2 he)⟩
        exact .inr ⟨hx, hlr hx h3⟩
  have hexcl : ∀ {p x m q}, Consecutive rows p x m → FirstStation rows x q → False := by
    intro p x m q hc hq
    have := prevOf_unique (g.prev.2 ⟨t, x, rows, rfl, rfl, ht, .inl ⟨p, m, rfl, hc⟩⟩)
      (g.prev.2 ⟨t, x, rows, rfl, rfl, ht, .inr ⟨rfl, q, hq⟩⟩)
    cases this
  have hpr : ∀ {p p' x m m'}, Consecutive rows p x m → Consecutive rows p' x m' → p = p' := by
    intro p p' x m m' hc hc'
    have := prevOf_unique (g.prev.2 ⟨t, x, rows, rfl, rfl, ht, .inl ⟨p, m, rfl, hc⟩⟩)
      (g.prev.2 ⟨t, x, rows, rfl, rfl, ht, .inl ⟨p', m', rfl, hc'⟩⟩)
    cases this
    rfl
  have hfirst : ∀ x q, FirstStation rows x q →
      printArrive pass0 tref (.int t) (.str x) ⟨.int 0, 0, 0, []⟩ = {} := by
    intro x q hq
    unfold printArrive
    cases hg : Dict.get? pass0 (key3 (.int t) (.int 0) (.str x)) with
    | none => rfl
    | some w =>
      exfalso
      obtain ⟨t', rows', s, s', mid, ht', hc, hk, -⟩ := (hP _ _).1 hg
      have hpl : Plain (.str s) := by
        obtain ⟨⟨r1, hr1, hs1⟩, -⟩ := consecutive_serves hc
        obtain ⟨bs, hbs, -⟩ := G.station ht' hr1 hs1
        exact (G.names _ hbs).2
      obtain ⟨k1, -, k3⟩ := C52_keys_partial.2.1 (plain_int t) (plain_int t') (plain_int 0) hpl hk
      cases render_int k1
      have : x = s' := k3
      subst this
      cases ht'.unique ht
      exact hexcl hc hq
  have harr : ∀ {p x m acc}, Consecutive rows p x m →
      printArrive pass0 tref (.int t) (.str x) ⟨.str p, dep t p, acc, sch⟩ =
        { arrive := some (tref + (pyRound (timesOf m).sum + pyInt (dep t p)))
          conflictedArrive := some (tref + (pyRound (timesOf m).sum + pyInt acc)) } := by
    intro p x m acc hc
    unfold printArrive
    rw [(hP (key3 (.int t) (.str p) (.str x)) (timesOf m).sum).2
      ⟨t, rows, p, x, m, ht, hc, rfl, by simp [roundIf]⟩]
  constructor
  · intro x q row hq hrow
    obtain ⟨acc, hacc, hr⟩ := hall x row hrow
    rcases hacc with ⟨-, rfl⟩ | ⟨p, m, e, hc, -⟩
    · rcases hr with ⟨-, rfl⟩ | ⟨-, e, -, rfl⟩ <;> simp only [hfirst x q hq, and_self]
    · exact (hexcl hc hq).elim
  · intro p x m row hc hrow
    obtain ⟨acc, hacc, hr⟩ := hall x row hrow
    rcases hacc with ⟨⟨q, hq⟩, -⟩ | ⟨p', m', e, hc', he, hacc⟩
    · exact (hexcl hc hq).elim
    · cases hpr hc hc'
      have hi := hint p (leaves_of_next G ht hc) e he
      have harr' : printArrive pass0 tref (.int t) (.str x) acc =
          { arrive := some (tref + (pyRound (timesOf m).sum + pyInt (dep t p)))
            conflictedArrive := some (tref + (pyRound (timesOf m).sum + pyInt e)) } := by
        rw [hacc]
        exact harr hc
      refine ⟨tref + (pyRound (timesOf m).sum + pyInt (dep t p)),
        tref + (pyRound (timesOf m).sum + pyInt e), e, ?_, ?_, he, ?_, ?_⟩
      · rcases hr with ⟨-, rfl⟩ | ⟨-, e', -, rfl⟩ <;> simp only [harr']
      · rcases hr with ⟨-, rfl⟩ | ⟨-, e', -, rfl⟩ <;> simp only [harr']
      · push_cast
        rw [pyInt_of hi.2]
        simp only [roundIf, if_true]
        ring
      · push_cast
        rw [pyInt_of hi.1]
        simp only [roundIf, if_true]
        ring
  · intro x row hx hrow
    obtain ⟨acc, -, ⟨hr, -⟩ | ⟨-, e, he, rfl⟩⟩ := hall x row hrow
    · exact absurd hr ((leaves_iff G).1 hx).2
    · have hi := hint x hx e he
      refine ⟨_, _, _, e, rfl, rfl, rfl, he, ?_, ?_, ?_⟩
      · push_cast; rw [pyInt_of hi.2]
      · push_cast; rw [pyInt_of hi.1]
      · rw [pyInt_of (hi.2.sub hi.1)]
  · intro x row hx hrow
    obtain ⟨acc, -, ⟨hr, -⟩ | ⟨-, e, he, rfl⟩⟩ := hall x row hrow
    · exact absurd hr ((leaves_iff G).1 hx).2
    · obtain ⟨hW, hW2⟩ := weights_input G h
      constructor
      · intro hl
        obtain ⟨y, ⟨w, hw⟩, -⟩ := hW2 t rows ht
        obtain ⟨info, rows', ty, w0, hti, hty, htw, hl', rfl⟩ := (hW _ _ _).1 hw
        have hw' := (hW t x _).2 ⟨info, rows', ty, w0, hti, hty, htw, hl, rfl⟩
        have hrr : rows' = rows := TableOf.unique ⟨info, hti⟩ ht
        subst hrr
        refine ⟨Weight tt (.int t) (.str x) * (dep t x - e), ⟨info, rows', ty, w0, x, e, hti, hty, htw,
          hl, he, ?_⟩, rfl⟩
        unfold Weight
        rw [hw']
        unfold weightOf
        by_cases hts : TakenForShunting td t
        · exact .inl ⟨hts, by simp [hts]⟩
        · exact .inr ⟨hts, by simp [hts]⟩
      · intro hl
        have : Weight tt (.int t) (.str x) = 0 := by
          unfold Weight
          cases hw : Dict.get? tt.penaltyWeights (key2 (.int t) (.str x)) with
          | none => rfl
          | some w =>
            obtain ⟨_, _, _, _, _, _, _, hl', _⟩ := (hW _ _ _).1 hw
            exact absurd hl' hl
        simp only [this]
        simp
  · intro x row hx hrow
    obtain ⟨acc, -, ⟨-, rfl⟩ | ⟨hr, -⟩⟩ := hall x row hrow
    · unfold printArrive
      split <;> exact ⟨rfl, rfl, rfl, rfl⟩
    · exact absurd hx ((leaves_iff G).1 hr).2

/-- **C75.** The timetable of every solution is printed without an exception. It has the trains in the
order of the tables, and for each of them its stations in the order of its timetable. For the trains of
`Shown` it tells the departures of the plan, the arrivals that follow from them, the delays and the
parts of the objective (`PrintedPlan`). -/
theorem C75_printed (hf : Feasible b σ) (hwhole : ∀ d ∈ delays, IsInt d.2)
    (hskip : ts.skipStation = some skip) (hpass : getTausPass td 0 = .ok pass0) (tref : ℤ)
    {dep : Int → String → ℚ}
    (hdep : ∀ t x, Leaves td t x → Departs ts tt b.dv σ (.int t) (.str x) (dep t x)) :
    ∃ d, printOptimisationResults b.prob ts tt pass0 skip dmax tref σ = .ok d ∧
      Dict.keys d = (Dict.keys td).map Val.int ∧
      ∀ t rows, TableOf td t rows → ∃ sch, Dict.get? d (.int t) = some sch ∧
        Dict.keys sch = (rows.filterMap (·.station)).map Val.str ∧
        (Shown td st t1 delays dmax t → PrintedPlan td st t1 delays dmax dep tref t rows sch) := by
  have g := gen_of_input G h
  have hJ : ts.J.Nodup := by rw [g.J]; exact G.trains.keys.map intKey_inj
  obtain ⟨d, hd⟩ : ∃ d, printOptimisationResults b.prob ts tt pass0 skip dmax tref σ = .ok d := by
    unfold printOptimisationResults
    refine loop_succeeds (fun d j hj => ?_) []
    rw [g.J] at hj
    obtain ⟨t, -, rfl⟩ := List.mem_map.1 hj
    obtain ⟨rows, ht⟩ := g.mem_J.1 (by rw [g.J]; exact hj)
    obtain ⟨sch, hsch⟩ := printTrain_runs (p := b.prob) (tt := tt) (pass := pass0) (skip := skip)
      (tref := tref) (dmax := dmax) (σ := σ) (g.path_some ht) (fun s hs hk => by
        obtain ⟨x, hx, rfl⟩ := List.mem_map.1 hs
        have hl : Leaves td t x := (leaves_iff G).2 ⟨⟨rows, ht, mem_stations.1 hx⟩, fun he => by
          obtain ⟨d', hd', hx⟩ := (g.skips _ _).2 ⟨t, x, rfl, rfl, he⟩
          rw [hskip] at hd'
          cases hd'
          exact hk hx⟩
        constructor
        · unfold impactToObjective
          split
          · rw [if_neg h0]; exact ⟨_, rfl⟩
          · exact ⟨_, rfl⟩
        · unfold delayAndActualTime
          split
          · obtain ⟨e, he⟩ := g.edt hl
            rw [show strKey x = Val.str x from rfl, he]
            exact ⟨_, rfl⟩
          · exact ⟨_, rfl⟩)
    rw [show intKey t = Val.int t from rfl, hsch]
    exact ⟨_, rfl⟩
  refine ⟨d, hd, ?_, ?_⟩
  · rw [print_keys hJ hd, g.J]; rfl
  · intro t rows ht
    obtain ⟨sch, h1, h2⟩ := print_train hd (g.mem_J.2 ⟨rows, ht⟩)
    refine ⟨sch, h1, ?_, fun hs => printed_train G hm h hb hn h0 hf hwhole hskip hpass hdep ht hs h2⟩
    rw [printTrain_keys (g.path_some ht) (List.Nodup.map strKey_inj (G.trains.table ht).1) h2]
    rfl

end Main

/-! ## Good sheets -/

theorem skip_of_input (h : makeInput td st table t1 r delays = .ok (ts, tt)) :
    ∃ skip, ts.skipStation = some skip := by
  unfold makeInput at h
  obtain ⟨skip, -, h⟩ := bind_ok h
  obtain ⟨ts', hts, h⟩ := bind_ok h
  obtain ⟨taus, -, h⟩ := bind_ok h
  obtain ⟨tt', -, h⟩ := bind_ok h
  cases h
  unfold makeTrainSet at hts
  obtain ⟨d, -, hts⟩ := bind_ok hts
  obtain ⟨o, -, hts⟩ := bind_ok hts
  obtain ⟨rd, -, hts⟩ := bind_ok hts
  obtain ⟨tk, -, hts⟩ := bind_ok hts
  obtain ⟨w, -, hts⟩ := bind_ok hts
  cases hts
  exact ⟨_, rfl⟩

/-- Whatever the whole delays, `d_max` and the time of reference, the solutions of the problem are
printed: a schedule for each train, with its stations in their order, and with the departures of the
solution if its delays are found in the problem. -/
def PlansPrinted (td : Trains) (st : Stations) (table : List PathRow) (t1 : String) : Prop :=
  ∀ delays dmax ts tt b σ (tref : ℤ), (∀ d ∈ delays, IsInt d.2) → dmax ≠ 0 →
    makeInput td st table t1 1 delays = .ok (ts, tt) → buildProblem ts tt dmax .integer = .ok b →
    Feasible b σ →
    ∃ pass0 skip dep d, getTausPass td 0 = .ok pass0 ∧ ts.skipStation = some skip ∧
      (∀ t x, Leaves td t x → Departs ts tt b.dv σ (.int t) (.str x) (dep t x)) ∧
      printOptimisationResults b.prob ts tt pass0 skip dmax tref σ = .ok d ∧
      Dict.keys d = (Dict.keys td).map Val.int ∧
      ∀ t rows, TableOf td t rows → ∃ sch, Dict.get? d (.int t) = some sch ∧
        Dict.keys sch = (rows.filterMap (·.station)).map Val.str ∧
        (Shown td st t1 delays dmax t → PrintedPlan td st t1 delays dmax dep tref t rows sch)

theorem plansPrinted (G : GoodData td st) (hm : AllMeet td) (hn : NamesClear td st) :
    PlansPrinted td st table t1 := by
  intro delays dmax ts tt b σ tref hw h0 h hb hf
  obtain ⟨pass0, hpass, -⟩ := C35_pass td G.trains G.tableNames 0
  obtain ⟨skip, hskip⟩ := skip_of_input h
  obtain ⟨dep, hdep⟩ := departs_exist G hm h hb σ
  obtain ⟨d, h1, h2, h3⟩ := C75_printed G hm h hb hn h0 hf hw hskip hpass tref hdep
  exact ⟨pass0, skip, dep, d, hpass, hskip, hdep, h1, h2, h3⟩

/-- C75 for any sheet that is read as a good one -/
theorem C75_data {secs : List Section} (G : GoodSheet secs st table t1) {data : List RawRow}
    (h0 : timetableToTrainDict data = .ok (secs.map fun s => (s.train, (s.info, s.rows)))) :
    ∃ td, buildTimetables data st table = .ok td ∧ LoadedFrom secs st td ∧
      PlansPrinted td st table t1 := by
  obtain ⟨td, h1, h2⟩ := G.load h0
  have L := G.loaded h2
  exact ⟨td, h1, L, plansPrinted (G.goodData L) (G.readable L).meet (G.namesClear L)⟩

/-- **C75.** From a good sheet the timetables are built, and the solutions are printed. -/
theorem C75_sheet {secs : List Section} (G : GoodSheet secs st table t1) :
    ∃ td, buildTimetables (sheetOf secs) st table = .ok td ∧ LoadedFrom secs st td ∧
      PlansPrinted td st table t1 :=
  C75_data G (C42_sheet_partial secs G.sections G.numbers)

/-! ## Example -/

/-- executable: the problem is built for rounded times, and its printed solution has these rows -/
def checkRows (td : Trains) (st : Stations) (table : List PathRow) (t1 : String)
    (delays : List (Int × ℚ)) (dmax : ℚ) (σ : LpVar → ℚ) (tref : ℤ)
    (rows : List (Int × String × Printed)) : Bool :=
  match makeInput td st table t1 1 delays with
  | .ok (ts, tt) =>
    match buildProblem ts tt dmax .integer, getTausPass td 0, ts.skipStation with
    | .ok b, .ok pass, some skip =>
      match printOptimisationResults b.prob ts tt pass skip dmax tref σ with
      | .ok d => rows.all fun x =>
          decide ((Dict.get? d (.int x.1)).bind (Dict.get? · (.str x.2.1)) = some x.2.2)
      | .error _ => false
    | _, _, _ => false
  | .error _ => false

theorem printedRows_of_check {rows : List (Int × String × Printed)}
    (hc : checkRows td st table t1 delays dmax σ tref rows = true)
    (h : makeInput td st table t1 1 delays = .ok (ts, tt))
    (hb : buildProblem ts tt dmax .integer = .ok b) :
    ∃ pass skip d, getTausPass td 0 = .ok pass ∧ ts.skipStation = some skip ∧
      printOptimisationResults b.prob ts tt pass skip dmax tref σ = .ok d ∧
      ∀ t x row, (t, x, row) ∈ rows →
        ∃ sch, Dict.get? d (.int t) = some sch ∧ Dict.get? sch (.str x) = some row := by
  unfold checkRows at hc
  rw [h] at hc
  simp only [hb] at hc
  split at hc
  · rename_i b' pass skip e1 e2 e3
    cases e1
    split at hc
    · rename_i d e4
      refine ⟨pass, skip, d, e2, e3, e4, fun t x row hm => ?_⟩
      have := List.all_eq_true.1 hc _ hm
      obtain ⟨sch, h1, h2⟩ := Option.bind_eq_some_iff.1 (of_decide_eq_true this)
      exact ⟨sch, h1, h2⟩
    · cases hc
  · cases hc


/-- train 3 is two minutes late, the other trains as in `Shuttle.plan` -/
def Shuttle.plan3 (v : LpVar) : ℚ :=
  match v.vid with
  | .delay j _ => if j = .int 3 then 2 else 0
  | .order _ _ _ _ => 1

theorem plan3_delay : ∀ v j s, v.vid = .delay j s →
    0 ≤ Shuttle.plan3 v ∧ Shuttle.plan3 v ≤ 20 ∧ ∃ n : ℤ, Shuttle.plan3 v = n := fun v j s hv => by
  have : Shuttle.plan3 v = 2 ∨ Shuttle.plan3 v = 0 := by
    unfold Shuttle.plan3; rw [hv]; simp only; split <;> simp
  rcases this with h | h <;> rw [h]
  · exact ⟨by norm_num, by norm_num, 2, by simp⟩
  · exact ⟨by norm_num, by norm_num, 0, by simp⟩

theorem plan3_order : ∀ v a b c d, v.vid = .order a b c d →
    Shuttle.plan3 v = 0 ∨ Shuttle.plan3 v = 1 :=
  fun v a b c d hv => .inr (by unfold Shuttle.plan3; rw [hv])

/-- the hypotheses of `C75_printed`, and some of the printed rows: train 3 leaves `A` two minutes after
12:10 and arrives in `C` at 12:24 instead of 12:22; train 1 was three minutes late before, which is
not counted -/
example : GoodData Shuttle.trains Shuttle.stations ∧ AllMeet Shuttle.trains ∧
    NamesClear Shuttle.trains Shuttle.stations ∧
    Shown Shuttle.trains Shuttle.stations "12:00" [(1, 3)] 20 1 ∧
    Shown Shuttle.trains Shuttle.stations "12:00" [(1, 3)] 20 3 ∧ ∃ ts tt b,
    makeInput Shuttle.trains Shuttle.stations Shuttle.table "12:00" 1 [(1, 3)] = .ok (ts, tt) ∧
    buildProblem ts tt 20 .integer = .ok b ∧ Feasible b Shuttle.plan3 ∧
    ∃ pass skip d sch1 sch3, getTausPass Shuttle.trains 0 = .ok pass ∧ ts.skipStation = some skip ∧
      printOptimisationResults b.prob ts tt pass skip 20 720 Shuttle.plan3 = .ok d ∧
      Dict.get? d (.int 1) = some sch1 ∧ Dict.get? d (.int 3) = some sch3 ∧
      Dict.get? sch1 (.str "A") = some ⟨none, none, some 723, some 0, some 723, some 0⟩ ∧
      Dict.get? sch3 (.str "A") = some ⟨none, none, some 732, some 2, some 730, some 0⟩ ∧
      Dict.get? sch3 (.str "B") = some ⟨some 737, some 735, some 740, some 2, some 738, some (1 / 10)⟩ ∧
      Dict.get? sch3 (.str "C") = some ⟨some 744, some 742, none, none, none, none⟩ := by
  obtain ⟨ts, tt, b, h, hb, hf, -⟩ := run_of_check (td := Shuttle.trains) (st := Shuttle.stations)
    (table := Shuttle.table) (t1 := "12:00") (r := 1) (delays := [(1, 3)]) (dmax := 20)
    (σ := Shuttle.plan3) (deps := []) (by decide +kernel) plan3_delay plan3_order
  obtain ⟨pass, skip, d, h1, h2, h3, h4⟩ := printedRows_of_check (td := Shuttle.trains)
    (st := Shuttle.stations) (table := Shuttle.table) (t1 := "12:00") (delays := [(1, 3)])
    (dmax := 20) (σ := Shuttle.plan3) (tref := 720)
    (rows := [(1, "A", ⟨none, none, some 723, some 0, some 723, some 0⟩),
      (3, "A", ⟨none, none, some 732, some 2, some 730, some 0⟩),
      (3, "B", ⟨some 737, some 735, some 740, some 2, some 738, some (1 / 10)⟩),
      (3, "C", ⟨some 744, some 742, none, none, none, none⟩)]) (by decide +kernel) h hb
  obtain ⟨sch1, k1, k2⟩ := h4 _ _ _ (List.mem_cons_self)
  obtain ⟨sch3, k3, k4⟩ := h4 3 "A" _ (.tail _ List.mem_cons_self)
  obtain ⟨sch3', k5, k6⟩ := h4 3 "B" _ (.tail _ (.tail _ List.mem_cons_self))
  cases k3.symm.trans k5
  obtain ⟨sch3', k7, k8⟩ := h4 3 "C" _ (.tail _ (.tail _ (.tail _ List.mem_cons_self)))
  cases k3.symm.trans k7
  have no : ∀ t : Int, (t = 1 ∨ t = 3) → ¬ TakenForShunting Shuttle.trains t := by
    rintro t ht ⟨n, hn, -, h⟩
    have h0 : ∀ n ∈ Dict.keys Shuttle.trains, 0 < n := by decide +kernel
    have := h0 n hn
    rcases ht with rfl | rfl <;> omega
  exact ⟨Shuttle.good, Shuttle.meet, Shuttle.names, .inl (no 1 (.inl rfl)), .inl (no 3 (.inr rfl)),
    ts, tt, b, h, hb, hf, pass, skip, d, sch1, sch3, h1, h2, h3, k1, k3, k2, k4, k6, k8⟩

/-! ## Trains whose delays are not in the problem -/

/-- train 19 leaves `C` an hour after the arrival of train 1, and goes to `B` only -/
def lateShuttle : Trains :=
  [(1, (["KS - Os"],
    [{ path := "a", station := some "A", passingTime := some 1, dep := some "12:00" },
     { path := "l1", passingTime := some 2 }, { path := "l2", passingTime := some 3 },
     { path := "b", station := some "B", passingTime := some 1, dep := some "12:08" },
     { path := "l3", passingTime := some 4 },
     { path := "c", station := some "C", passingTime := some 0 }])),
   (19, (["KS - Os"],
    [{ path := "c", station := some "C", passingTime := some 1, turnaround := some 6,
       dep := some "13:30" },
     { path := "l3", passingTime := some 4 },
     { path := "b", station := some "B", passingTime := some 0 }]))]

theorem lateShuttle_good : GoodData lateShuttle Shuttle.stations where
  trains := ⟨by decide +kernel, by unfold OnceEach; decide +kernel,
    by unfold BlocksOnce; decide +kernel⟩
  stations := Shuttle.stations_wf
  tagged := tagged_of_check Shuttle.stations_wf.1 (by decide +kernel)
  names := Shuttle.good.names

/-- C75 is false of the code for other trains: train 19 leaves `C` at 13:30 in the plan, and 12:00 is
printed as its departure. -/
theorem C75_false : GoodData lateShuttle Shuttle.stations ∧ AllMeet lateShuttle ∧
    NamesClear lateShuttle Shuttle.stations ∧ ∃ ts tt b,
    makeInput lateShuttle Shuttle.stations Shuttle.table "12:00" 1 [] = .ok (ts, tt) ∧
    buildProblem ts tt 20 .integer = .ok b ∧ Feasible b Shuttle.plan ∧
    Departs ts tt b.dv Shuttle.plan (.int 19) (.str "C") 90 ∧
    ∃ pass skip d sch row, getTausPass lateShuttle 0 = .ok pass ∧ ts.skipStation = some skip ∧
      printOptimisationResults b.prob ts tt pass skip 20 720 Shuttle.plan = .ok d ∧
      Dict.get? d (.int 19) = some sch ∧ Dict.get? sch (.str "C") = some row ∧
      row.departure = some 720 := by
  obtain ⟨ts, tt, b, h, hb, hf, hd⟩ := run_of_check (td := lateShuttle) (st := Shuttle.stations)
    (table := Shuttle.table) (t1 := "12:00") (r := 1) (delays := []) (dmax := 20)
    (σ := Shuttle.plan) (deps := [(19, "C", 90)]) (by decide +kernel) (plan_delay (by norm_num))
    plan_order
  obtain ⟨pass, skip, d, h1, h2, h3, h4⟩ := printedRows_of_check (td := lateShuttle)
    (st := Shuttle.stations) (table := Shuttle.table) (t1 := "12:00") (delays := [])
    (dmax := 20) (σ := Shuttle.plan) (tref := 720)
    (rows := [(19, "C", ⟨none, none, some 720, some 0, some 720, some 0⟩)]) (by decide +kernel) h hb
  obtain ⟨sch, k1, k2⟩ := h4 _ _ _ List.mem_cons_self
  have hm : AllMeet lateShuttle := by
    have hk : ∀ n ∈ Dict.keys lateShuttle, 10 * n + 9 ∈ Dict.keys lateShuttle → n = 1 := by
      decide +kernel
    intro n h1 h2
    rw [hk n h1 h2]
    exact ⟨"c", .inl ⟨⟨_, _, ⟨_, rfl⟩, rfl, rfl⟩, ⟨_, _, ⟨_, rfl⟩, rfl, rfl⟩⟩⟩
  exact ⟨lateShuttle_good, hm, ⟨by decide +kernel, Shuttle.names.stations⟩, ts, tt, b, h, hb, hf,
    hd _ _ _ (by simp), pass, skip, d, sch, _, h1, h2, h3, k1, k2, rfl⟩

end Verif
