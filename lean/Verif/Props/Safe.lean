import Verif.Props.SwitchesAll
import Verif.Props.Solvable
import Verif.Props.Rules
import Verif.Props.Rules2
import Verif.Props.Order

/-!
# C57 – C61: what feasible plans of generated input guarantee

Everything is said about the tables of the trains; `Departs` gives the departure times of the plan.
-/

namespace Verif

variable {td : Trains} {st : Stations} {table : List PathRow} {t1 : String} {r : Int}
  {delays : List (Int × ℚ)} {ts : TrainSets} {tt : Timetable} {dmax : ℚ} {cat : Cat} {b : Built}
  {σ : LpVar → ℚ}

/-- the trains have numbers `n` and `10 n + 9`: the same rolling stock -/
def Paired (t t' : Int) : Prop := t = 10 * t' + 9 ∨ t' = 10 * t + 9

theorem Gen.notSame (g : Gen td st table t1 r ts tt) (hm : AllMeet td) {t t' : Int}
    (h : ¬ Paired t t') : ¬ SameStock ts (.int t) (.int t') := by
  rintro ⟨-, e, he, hp⟩
  have hs := Dict.get?_of_mem g.jround_nodup he
  rcases hp with hp | hp
  · obtain ⟨x, a, a', -, hq, -, -, hn, -⟩ := g.round hm hs hp
    cases hq
    exact h hn
  · obtain ⟨x, a, a', -, hq, -, -, hn, -⟩ := g.round hm hs hp
    cases hq
    exact h hn.symm

theorem Gen.passTime (g : Gen td st table t1 r ts tt) {t : Int} {rows m : List Row} {x x2 : String}
    (ht : TableOf td t rows) (hc : Consecutive rows x x2 m) {w : ℚ}
    (hw : Pass tt (.int t) (.str x) (.str x2) w) : w = roundIf r (timesOf m).sum := by
  have := g.pass t rows x x2 m ht hc
  unfold Pass at this hw
  rw [hw] at this
  exact Option.some.inj this

/-! ## C57: opposite trains -/

/-- `t'`, running from `x2` to `x`, does not end in `x`; and `x` is the first of the two stations in
the table of stations, or trains against other trains from `x` to `x2` all end there -/
def GoesOn (td : Trains) (st : Stations) (x x2 : String) (t' : Int) : Prop :=
  ¬ EndsIn td st t' x ∧
    (¬ Before (Dict.keys st) x2 x ∨ ∀ i i', Opposite td x x2 i i' → EndsIn td st i x2)

theorem before_asymm {l : List String} (hl : l.Nodup) {a b : String} (h : Before l a b) :
    ¬ Before l b a := by
  rintro ⟨m1, m2, m3, hm⟩
  obtain ⟨l1, l2, l3, he⟩ := h
  have key : ∀ {a b : String} {l1 l2 l3 : List String}, l = l1 ++ a :: l2 ++ b :: l3 →
      l.idxOf a < l.idxOf b := by
    rintro a b l1 l2 l3 he
    rw [he] at hl ⊢
    have h1 : a ∉ l1 := fun h => by
      rw [List.append_assoc, List.nodup_append] at hl
      exact hl.2.2 a h a (by simp) rfl
    have h2 : b ∉ l1 ++ a :: l2 := fun h => by
      rw [List.nodup_append] at hl
      exact hl.2.2 b h b (by simp) rfl
    rw [idx_first h2, List.append_assoc, List.cons_append, idx_first h1]
    simp
  have h1 := key he
  have h2 := key hm
  omega

/-- it is enough that neither of the trains ends at the other end -/
theorem goesOn_of_both {td : Trains} {st : Stations} (hn : (Dict.keys st).Nodup) {x x2 : String}
    {t t' : Int} (h : ¬ EndsIn td st t x2) (h' : ¬ EndsIn td st t' x) :
    GoesOn td st x x2 t' ∨ GoesOn td st x2 x t := by
  by_cases hb : Before (Dict.keys st) x2 x
  · exact .inr ⟨h, .inl (before_asymm hn hb)⟩
  · exact .inl ⟨h', .inl hb⟩

/-- **C57.** Two trains of different rolling stock run in opposite directions over the same blocks
between `x` and `x2`: one of them departs only after the other has arrived. This is for trains of
which at least one goes on at the other end, with the further condition of `GoesOn` if the other one
ends there. Missing: trains that both end, and trains that miss the condition; for those it is false
(`C57_false`, `C57_false2`). -/
theorem C57_opposite_partial (G : GoodData td st)
    (h : makeInput td st table t1 r delays = .ok (ts, tt)) (hm : AllMeet td)
    (hb : buildProblem ts tt dmax cat = .ok b) (hf : Feasible b σ) {t t' : Int}
    {rows rows' m m' : List Row} {x x2 : String} (ht : TableOf td t rows)
    (ht' : TableOf td t' rows') (hc : Consecutive rows x x2 m) (hc' : Consecutive rows' x2 x m')
    (hsame : m.map (·.path) = (m'.map (·.path)).reverse) (hne : m ≠ []) (hst : ¬ Paired t t')
    (hgo : GoesOn td st x x2 t' ∨ GoesOn td st x2 x t) {d d' : ℚ}
    (hd : Departs ts tt b.dv σ (.int t) (.str x) d)
    (hd' : Departs ts tt b.dv σ (.int t') (.str x2) d') :
    d + roundIf r (timesOf m).sum ≤ d' ∨ d' + roundIf r (timesOf m').sum ≤ d := by
  have g := gen_of_input G h
  obtain ⟨o, ho, hJ⟩ := g.Josingle
  have hop : Opposite td x x2 t t' := ⟨m.map (·.path), by simpa using hne, Runs.of ht hc, by
    rw [hsame, List.reverse_reverse]; exact Runs.of ht' hc'⟩
  have hin : ∀ {t rows x}, TableOf td t rows → Serves rows x → x ∈ chosen st none := by
    rintro t rows x ht ⟨row, hr, hs⟩
    obtain ⟨bs, hbs, -⟩ := G.station ht hr hs
    exact List.mem_map.2 ⟨_, hbs, rfl⟩
  have hs := consecutive_serves hc
  have hne' : t ≠ t' := hop.ne G.trains
  have hv : ∀ {a b : Int}, a ≠ b → Val.int a ≠ .int b := fun h e => h (by cases e; rfl)
  have mem : ∀ {k k' : String} {l : List (Int × Int)}, Dict.get? o (k, k') = some l →
      ((Val.str k, Val.str k'), l.map fun p => (intKey p.1, intKey p.2)) ∈ ts.Josingle := by
    intro k k' l hl
    rw [hJ]
    exact List.mem_map.2 ⟨_, Dict.mem_of_get? hl, rfl⟩
  obtain ⟨o', ho', hall⟩ := C30_computed td st G.trains.keys G.stations.1.1 G.tagged G.trains.once
    none (fun _ h => h) G.stations.1.1
  rw [ho] at ho'
  cases ho'
  have found : (∃ l, Dict.get? o (x, x2) = some l ∧ (t, t') ∈ l) ∨
      (∃ l, Dict.get? o (x2, x) = some l ∧ (t', t) ∈ l) := by
    refine hgo.imp (fun h => ?_) (fun h => ?_)
    · refine (hall x x2 t t').2 ⟨hin ht hs.1, hin ht hs.2, hop, h.1, ?_⟩
      rintro ⟨hb, i, i', hi, hn⟩
      rcases h.2 with h | h
      · exact h hb
      · exact hn (h i' i hi.symm)
    · refine (hall x2 x t' t).2 ⟨hin ht hs.2, hin ht hs.1, hop.symm, h.1, ?_⟩
      rintro ⟨hb, i, i', hi, hn⟩
      rcases h.2 with h | h
      · exact h hb
      · exact hn (h i' i hi.symm)
  rcases found with ⟨l, hl, hp⟩ | ⟨l, hl, hp⟩
  · obtain ⟨w, w', hw, hw', hall⟩ := C02_singleLine hb g.namesOK hf (mem hl) (j := .int t)
      (jp := .int t') (List.mem_map.2 ⟨_, hp, rfl⟩) (hv hne') (g.notSame hm hst)
    rw [← g.passTime ht hc hw, ← g.passTime ht' hc' hw']
    exact hall d d' hd hd'
  · obtain ⟨w, w', hw, hw', hall⟩ := C02_singleLine hb g.namesOK hf (mem hl) (j := .int t')
      (jp := .int t) (List.mem_map.2 ⟨_, hp, rfl⟩) (hv hne'.symm)
      (g.notSame hm (fun e => hst e.symm))
    rw [← g.passTime ht hc hw', ← g.passTime ht' hc' hw]
    exact (hall d' d hd' hd).symm

/-! ## C58: station tracks -/

theorem Gen.notExempt (g : Gen td st table t1 r ts tt) {t : Int} {x : String}
    (h : ∀ n, EndsIn td st t n → ¬ x.toList <:+: n.toList) :
    ¬ TrackExempt ts (.str x) (.int t) := by
  rintro ⟨d, n, m, h1, h2, h3, h4⟩
  cases h3
  obtain ⟨t', x', e1, e2, he⟩ := (g.skips (.int t) (.str n)).1 ⟨d, h1, h2⟩
  cases e1; cases e2
  exact h n he h4

theorem Gen.notTakes (g : Gen td st table t1 r ts tt) (hm : AllMeet td) {t : Int}
    {rows m : List Row} {p x : String} (ht : TableOf td t rows) (hc : Consecutive rows p x m)
    (k : Val) : ¬ TakesOver ts (.int t) (.str x) k := by
  rintro ⟨ps, h1, h2, -⟩
  obtain ⟨x', a, a', e1, e2, -, -, -, bl, ⟨-, hfirst⟩, hbel⟩ := g.round hm h1 (List.mem_of_find?_eq_some h2)
  cases e1; cases e2
  obtain ⟨rows2, row, ht2, hh, hp⟩ := hfirst
  cases ht2.unique ht
  -- the first row of the train is at `x`, but it comes from `p`
  have hmem : row ∈ rows := List.mem_of_head? hh
  obtain ⟨info, hmm⟩ := ht.mem
  have hs : row.station = some x := (g.data.tagged _ hmm row hmem x).2 (by rw [hp]; exact hbel)
  have ho := (g.data.trains.table ht).1
  have hno : FirstStation rows x row := by
    cases rows with
    | nil => cases hmem
    | cons q qs =>
      cases hh
      exact ⟨[], qs, rfl, hs, by simp⟩
  have hprev : PrevOf ts (.int t) (.str x) .none := g.prev.2 ⟨t, x, rows, rfl, rfl, ht, .inr ⟨rfl, row, hno⟩⟩
  have hprev' : PrevOf ts (.int t) (.str x) (.str p) :=
    g.prev.2 ⟨t, x, rows, rfl, rfl, ht, .inl ⟨p, m, rfl, hc⟩⟩
  have := prevOf_unique hprev hprev'
  cases this

/-- trains with a common block of a station are in a common group -/
theorem Gen.sameTrack (g : Gen td st table t1 r ts tt) {t t' : Int} {rows rows' : List Row}
    {x : String} (ht : TableOf td t rows) (ht' : TableOf td t' rows') {q q' : Row} (hq : q ∈ rows)
    (hq' : q' ∈ rows') (hs : q.station = some x) (hs' : q'.station = some x)
    (hsame : q.path = q'.path) (hx : x ∉ ["KO(KS)", "KO(IC)"])
    (hbl : q.path ∉ ["\"KO\", \"ST-M\", 1114, \"(N/A)\"", "\"KO\", \"ST-M\", 1113, \"(N/A)\"",
      "\"KO\", \"ST-M\", 1118, \"(N/A)\""]) :
    ∃ gs, Dict.get? ts.Jtrack (.str x) = some gs ∧ ∃ gr ∈ gs, .int t ∈ gr ∧ .int t' ∈ gr := by
  have G := g.data
  obtain ⟨o, ho, hJ⟩ := g.Jtrack
  obtain ⟨bs, hbs, hqb⟩ := G.station ht hq hs
  have hch : x ∈ chosen st none := List.mem_map.2 ⟨_, hbs, rfl⟩
  have hks : (Dict.keys st).Nodup := G.stations.1.1
  have hnx : ∀ {t rows} {q : Row}, TableOf td t rows → q ∈ rows → q.station = some x →
      q.path ∉ ["\"KO\", \"ST-M\", 1114, \"(N/A)\"", "\"KO\", \"ST-M\", 1113, \"(N/A)\"",
        "\"KO\", \"ST-M\", 1118, \"(N/A)\""] →
      ∃ tt, TableOf td t tt ∧ CallsAt st tt x ∧ ¬ ExcludedTrain bs tt := by
    intro t rows q ht hq hs hbl
    obtain ⟨bs', hbs', hqb'⟩ := G.station ht hq hs
    refine ⟨rows, ht, ⟨q, hq, bs', hbs', hqb'⟩, ?_⟩
    rintro ⟨z, hz, hzz⟩
    have : q.path ∈ stationBlocks bs rows := by
      unfold stationBlocks
      exact List.mem_filter.2 ⟨(belongs_iff hks hbs).1 ⟨bs', hbs', hqb'⟩, by
        simpa using ⟨q, hq, rfl⟩⟩
    rw [hzz] at this
    rw [List.mem_singleton.1 this] at hbl
    exact hbl hz
  obtain ⟨gs, hgs, -, -, hmem, -⟩ := C28_groups td st G.trains.keys hks G.tagged none o ho x bs hbs
    hch hx
  obtain ⟨gr, hgr, hj, hj'⟩ := C28_common_partial td st G.trains.keys hks G.tagged G.trains.once none
    o ho x gs hgs t rows t' rows' ht ht' ((hmem t).2 (hnx ht hq hs hbl))
    ((hmem t').2 (hnx ht' hq' hs' (by rw [← hsame]; exact hbl)))
    ⟨q.path, ⟨bs, hbs, hqb⟩, ⟨q, hq, rfl⟩, q', hq', hsame.symm⟩
  refine ⟨gs.map (·.map intKey), ?_, _, List.mem_map.2 ⟨gr, hgr, rfl⟩,
    List.mem_map.2 ⟨t, hj, rfl⟩, List.mem_map.2 ⟨t', hj', rfl⟩⟩
  rw [hJ]
  exact (get?_map_key strKey_inj _ o x).trans (by rw [hgs]; rfl)

/-- **C58.** Two trains of different rolling stock come from other stations to `x`, use the same track
there (a common block), and go on: one of them arrives only after the other has left. Not for the
stations and blocks that the code leaves out; and missing are trains that end in a station whose name
contains the name of `x`, which the code leaves out too (`C58_false`). -/
theorem C58_tracks_partial (G : GoodData td st)
    (h : makeInput td st table t1 r delays = .ok (ts, tt)) (hm : AllMeet td)
    (hb : buildProblem ts tt dmax cat = .ok b) (hf : Feasible b σ) {t t' : Int}
    {rows rows' m m' : List Row} {p p' x : String} (hne : t ≠ t') (ht : TableOf td t rows)
    (ht' : TableOf td t' rows') (hc : Consecutive rows p x m) (hc' : Consecutive rows' p' x m')
    {q q' : Row} (hq : q ∈ rows) (hq' : q' ∈ rows') (hs : q.station = some x)
    (hs' : q'.station = some x) (hsame : q.path = q'.path)
    (hx : x ∉ ["KO(KS)", "KO(IC)"])
    (hbl : q.path ∉ ["\"KO\", \"ST-M\", 1114, \"(N/A)\"", "\"KO\", \"ST-M\", 1113, \"(N/A)\"",
      "\"KO\", \"ST-M\", 1118, \"(N/A)\""]) (hst : ¬ Paired t t')
    (hend : ∀ n, EndsIn td st t n → ¬ x.toList <:+: n.toList)
    (hend' : ∀ n, EndsIn td st t' n → ¬ x.toList <:+: n.toList) {dp dp' d d' : ℚ}
    (hdp : Departs ts tt b.dv σ (.int t) (.str p) dp)
    (hdp' : Departs ts tt b.dv σ (.int t') (.str p') dp')
    (hd : Departs ts tt b.dv σ (.int t) (.str x) d)
    (hd' : Departs ts tt b.dv σ (.int t') (.str x) d') :
    d ≤ dp' + roundIf r (timesOf m').sum ∨ d' ≤ dp + roundIf r (timesOf m).sum := by
  have g := gen_of_input G h
  obtain ⟨gs, hgs, gr, hgr, hj, hj'⟩ := g.sameTrack ht ht' hq hq' hs hs' hsame hx hbl
  have hcont : ∀ {t : Int}, (∀ n, EndsIn td st t n → ¬ x.toList <:+: n.toList) →
      ∀ k, ¬ ContinuedBy ts (.int t) (.str x) k := by
    intro t hend k hk
    obtain ⟨x', a, a', e1, e2, -, he⟩ := g.continued hm hk
    cases e1; cases e2
    exact hend x he (List.infix_refl _)
  obtain ⟨res, hres, hall⟩ := C04_stationTrack_partial hb g.namesOK hf (Dict.mem_of_get? hgs) hgr
    (j := .int t) (jp := .int t') hj hj'
    (fun e => hne (by cases e; rfl)) (g.notSame hm hst) (g.notExempt hend) (g.notExempt hend')
    (hcont hend) (hcont hend')
  have hres0 : res = 0 := by
    rcases hres with ⟨⟨l, hl, -⟩, -⟩ | ⟨-, h0⟩
    · rw [g.noAdd] at hl; cases hl
    · exact h0
  subst hres0
  have arr : ∀ {t : Int} {rows m : List Row} {p : String} {dp : ℚ}, TableOf td t rows →
      Consecutive rows p x m → Departs ts tt b.dv σ (.int t) (.str p) dp →
      Arrives ts tt (Departs ts tt b.dv σ) (.int t) (.str x) (dp + roundIf r (timesOf m).sum) := by
    intro t rows m p dp ht hc hdp
    exact .inr (.inl ⟨g.notTakes hm ht hc, .str p, dp, _,
      g.prev.2 ⟨t, x, rows, rfl, rfl, ht, .inl ⟨p, m, rfl, hc⟩⟩, (by simp), hdp,
      g.pass t rows p x m ht hc, rfl⟩)
  have := hall d _ d' _ hd hd' (arr ht hc hdp) (arr ht' hc' hdp')
  simpa using this

/-! ## C59: rolling stock -/

/-- **C59.** Train `t` ends in a block of station `x` where train `t'` begins, the trains have numbers
`n` and `10 n + 9`, and do not also meet the other way round: then `t'` leaves `x` only after `t` has
arrived and the turnaround time has passed. -/
theorem C59_stock (G : GoodData td st) (h : makeInput td st table t1 r delays = .ok (ts, tt))
    (hm : AllMeet td) (hb : buildProblem ts tt dmax cat = .ok b) (hf : Feasible b σ) {t t' : Int}
    {rows rows' m : List Row} {p x bl : String} {q : Row} {v : ℚ} (ht : TableOf td t rows)
    (ht' : TableOf td t' rows') (hst : Paired t t') (hmeet : Meets td t t' bl)
    (hone : ∀ c, ¬ Meets td t' t c) (hbl : BelongsTo st bl x) (hc : Consecutive rows p x m)
    (hq : rows'.head? = some q) (hv : q.turnaround = some v) {d d' : ℚ}
    (hd : Departs ts tt b.dv σ (.int t) (.str p) d)
    (hd' : Departs ts tt b.dv σ (.int t') (.str x) d') :
    d + roundIf r (timesOf m).sum + v ≤ d' := by
  have g := gen_of_input G h
  obtain ⟨o, ho, hJ⟩ := g.Jround
  have hkey : ∀ {t rows}, TableOf td t rows → t ∈ Dict.keys td := fun ht => by
    obtain ⟨info, hm⟩ := ht.mem
    exact List.mem_map.2 ⟨_, hm, rfl⟩
  obtain ⟨l, hl, hp⟩ := (C31_computed td st G.stations.1 hm o ho x t t').2
    ⟨hkey ht, hkey ht', ⟨bl, hmeet, hbl⟩, hst.imp id fun e => ⟨e, hone⟩⟩
  obtain ⟨p', w, pr, hp', hw, hpr, hall⟩ := C05_circulation hb g.namesOK hf
    (s := .str x) (l := l.map fun p => (intKey p.1, intKey p.2))
    (by rw [hJ]; exact List.mem_map.2 ⟨_, Dict.mem_of_get? hl, rfl⟩) (j := .int t) (jp := .int t')
    (List.mem_map.2 ⟨_, hp, rfl⟩)
  have := prevOf_unique hp' (g.prev.2 ⟨t, x, rows, rfl, rfl, ht, .inl ⟨p, m, rfl, hc⟩⟩)
  subst this
  rw [← g.passTime ht hc hw]
  obtain ⟨rows2, row, ht2, hh, hrs⟩ := g.starts_leaves hmeet.2 hbl
  cases ht2.unique ht'
  rw [hq] at hh
  cases hh
  have h2 := g.prep t' x q v hrs hv
  unfold Prep at h2 hpr
  rw [hpr] at h2
  cases h2
  exact hall d d' hd hd'

/-! ## C60: switches -/

/-- moment at which a train passes the switches of a station: when it leaves, or when it arrives -/
def PassesSwitches (td : Trains) (r : Int) (D : Val → Val → ℚ → Prop) (x : String) (t : Int)
    (place : String) (a : ℚ) : Prop :=
  (place = "out" ∧ D (.int t) (.str x) a) ∨
  (place = "in" ∧ ∃ rows p m d, TableOf td t rows ∧ Consecutive rows p x m ∧
    D (.int t) (.str p) d ∧ a = d + roundIf r (timesOf m).sum)

/-- **C60.** Two trains of different rolling stock that pass a common switch of `x` do so at least one
minute apart. Not at the stations `KO(IC)` and `KO(KS)`, and at `KO(STM)` not for movements from or to
`KO` (there it is false, see `C60_false` and `C60_false2`); and for tables in which rows for the same
blocks agree. -/
theorem C60_switches_partial (G : GoodData td st) (h : makeInput td st table t1 r delays = .ok (ts, tt))
    (hm : AllMeet td) (hb : buildProblem ts tt dmax cat = .ok b) (hf : Feasible b σ)
    (hcells : SameCells table) {t t' : Int} {x a a' : String}
    {S S' : List Int} {z : Int} (hne : t ≠ t') (hx : x ∉ ["KO(IC)", "KO(KS)"])
    (hko : x = "KO(STM)" → ¬ ToOrFromKO td t a ∧ ¬ ToOrFromKO td t' a')
    (hS : SwitchesAt td table t x a S) (hS' : SwitchesAt td table t' x a' S') (hz : z ∈ S)
    (hz' : z ∈ S') (hst : ¬ Paired t t') {c c' : ℚ}
    (hp : PassesSwitches td r (Departs ts tt b.dv σ) x t a c)
    (hp' : PassesSwitches td r (Departs ts tt b.dv σ) x t' a' c') : c + 1 ≤ c' ∨ c' + 1 ≤ c := by
  have g := gen_of_input G h
  obtain ⟨o, ho, hJ⟩ := g.Jswitch
  obtain ⟨rows, ht, hcall⟩ := switchesAt_calls G.tagged hS
  obtain ⟨q, hq, bs, hbs, hqb⟩ := hcall
  have hch : x ∈ chosen st none := List.mem_map.2 ⟨_, hbs, rfl⟩
  obtain ⟨v, hv, hall⟩ := C32_complete td st table G.stations G.tagged G.trains hcells
    none o ho x hch hx
  have mom : ∀ {t a c}, PassesSwitches td r (Departs ts tt b.dv σ) x t a c →
      ∃ p, SwitchMoment ts tt (Departs ts tt b.dv σ) (.str x) (.int t) a p c := by
    rintro t a c (⟨e, hd⟩ | ⟨e, rows, p, m, d, ht, hc, hd, ec⟩)
    · exact ⟨_, .inl ⟨e, rfl, hd⟩⟩
    · exact ⟨.str p, .inr ⟨e, g.prev.2 ⟨t, x, rows, rfl, rfl, ht, .inl ⟨p, m, rfl, hc⟩⟩, d, _, hd,
        g.pass t rows p x m ht hc, ec⟩⟩
  have place : ∀ {t a S}, SwitchesAt td table t x a S → a = "in" ∨ a = "out" := by
    rintro t a S ⟨_, -, ⟨e, -⟩ | ⟨e, -⟩⟩
    · exact .inl e
    · exact .inr e
  have he : (Val.str x, v.map fun y => y.map fun w => (intKey w.1, w.2)) ∈ ts.Jswitch := by
    rw [hJ]
    exact List.mem_map.2 ⟨_, Dict.mem_of_get? hv, rfl⟩
  obtain ⟨p, hmo⟩ := mom hp
  obtain ⟨p', hmo'⟩ := mom hp'
  have hv' : ∀ {a b : Int}, a ≠ b → Val.int a ≠ .int b := fun h e => h (by cases e; rfl)
  have one : ∀ {res}, Res tt res → res = 1 := fun hr => by
    have := g.res
    unfold Res at hr
    rw [hr] at this
    exact Option.some.inj this
  rcases hall t a t' a' S S' z hne hS hS' hz hz' hko with hl | hl
  · obtain ⟨res, hres, hh⟩ := C06_switches hb g.namesOK hf he (j := .int t) (jp := .int t')
      (List.mem_map.2 ⟨_, hl, rfl⟩) (hv' hne) (place hS) (place hS') (g.notSame hm hst)
    rw [one hres] at hh
    exact hh p c p' c' hmo hmo'
  · obtain ⟨res, hres, hh⟩ := C06_switches hb g.namesOK hf he (j := .int t') (jp := .int t)
      (List.mem_map.2 ⟨_, hl, rfl⟩) (hv' hne.symm) (place hS') (place hS)
      (g.notSame hm fun e => hst e.symm)
    rw [one hres] at hh
    exact (hh p' c' p c hmo' hmo).symm

/-! ## C61: the timetable of a train -/

/-- **C61.** No train leaves a station before the departure time in its table; and between leaving one
station and leaving the next one there is time for the run and for the stop. -/
theorem C61_timetable (G : GoodData td st) (h : makeInput td st table t1 r delays = .ok (ts, tt))
    (hb : buildProblem ts tt dmax cat = .ok b) (hf : Feasible b σ) {t : Int} {rows : List Row}
    (ht : TableOf td t rows) {x : String} {d : ℚ}
    (hd : Departs ts tt b.dv σ (.int t) (.str x) d) :
    (∀ dep v, FirstDep rows x dep → MinutesFrom t1 dep v → v ≤ d) ∧
    (∀ p m q, Consecutive rows p x m → q ∈ rows → q.station = some x →
      ∃ d0, Departs ts tt b.dv σ (.int t) (.str p) d0 ∧
        d0 + roundIf r (timesOf m).sum + roundIf r (q.passingTime.getD 0) ≤ d) := by
  have g := gen_of_input G h
  obtain ⟨h1, -, -⟩ := C07_notEarly hb hf hd
  refine ⟨fun dep v hfd hv => ?_, fun p m q hc hq hs => ?_⟩
  · obtain ⟨sc, hsc, hall⟩ := g.sched
    exact h1 sc v hsc ((hall t x v).2 ⟨rows, dep, ht, hfd, hv⟩)
  · obtain ⟨d0, w, s, hd0, hw, hs', hle⟩ := C03_step hb hf (g.mem_J.2 ⟨rows, ht⟩)
      (g.prev.2 ⟨t, x, rows, rfl, rfl, ht, .inl ⟨p, m, rfl, hc⟩⟩) (by simp) hd
    refine ⟨d0, hd0, ?_⟩
    rw [← g.passTime ht hc hw]
    have hlast : rows.getLast? ≠ some q := by
      intro hl
      obtain ⟨e, v, -, hv, -⟩ := hd
      obtain ⟨t', x', e1, e2, row, rows', ht', hr, hrs, hrl⟩ := g.leaves_of_delay
        ((delayVariables_find (parts hb).hdv).1 (delayAt_ok.1 hv)).1
      cases e1; cases e2
      cases ht'.unique ht
      rw [once_unique (G.trains.table ht).1 hr hq hrs hs] at hrl
      exact hrl hl
    have h2 := g.stop t x q ⟨rows, ht, hq, hs, hlast⟩
    unfold Stop at h2 hs'
    rw [hs'] at h2
    cases h2
    exact hle

/-- the sum of the delays given for a train -/
def delayOf (delays : List (Int × ℚ)) (t : Int) : ℚ :=
  ((delays.filter fun d => decide (d.1 = t)).map Prod.snd).sum

theorem addDelays_get {delays : List (Int × ℚ)} (hpos : ∀ d ∈ delays, 0 ≤ d.2) {ic : Dict String ℚ}
    (hk : (Dict.keys ic).Nodup) {t : Int} {s : String} {v : ℚ}
    (hv : Dict.get? ic (key2 (.int t) (.str s)) = some v) :
    ∃ u, Dict.get? (delays.foldl (fun ic d => addDelay ic d.1 d.2) ic) (key2 (.int t) (.str s)) =
      some u ∧ v + delayOf delays t ≤ u := by
  induction delays generalizing ic v with
  | nil => exact ⟨v, hv, by simp [delayOf]⟩
  | cons d ds ih =>
    have hk' : (Dict.keys (addDelay ic d.1 d.2)).Nodup := by rw [C39_keys]; exact hk
    have h0 := hpos d List.mem_cons_self
    have hds : ∀ e ∈ ds, 0 ≤ e.2 := fun e he => hpos e (List.mem_cons_of_mem _ he)
    simp only [List.foldl_cons]
    rcases C39_computed ic d.1 d.2 hk t s v hv with ⟨h1, -⟩ | ⟨h1, hno⟩
    · obtain ⟨u, hu, hle⟩ := ih hds hk' h1
      refine ⟨u, hu, ?_⟩
      by_cases e : d.1 = t
      · simp only [delayOf, List.filter_cons, e, decide_true, if_true, List.map_cons,
          List.sum_cons] at hle ⊢
        linarith
      · simp only [delayOf, List.filter_cons, e, decide_false] at hle ⊢
        rw [if_neg (by simp)]
        linarith
    · obtain ⟨u, hu, hle⟩ := ih hds hk' h1
      have e : d.1 ≠ t := fun e => hno (.inl (by rw [e]))
      refine ⟨u, hu, ?_⟩
      simp only [delayOf, List.filter_cons, e, decide_false] at hle ⊢
      rw [if_neg (by simp)]
      exact hle

theorem initial_nodup {ic : Dict String ℚ} (h : getInitialConditions td t1 = .ok ic) :
    (Dict.keys ic).Nodup := by
  unfold getInitialConditions at h
  refine loop_inv (P := fun d : Dict String ℚ => (Dict.keys d).Nodup) h List.nodup_nil ?_
  intro e _ a c ha hac
  obtain ⟨row, -, hac⟩ := bind_ok hac
  obtain ⟨v, -, hac⟩ := bind_ok hac
  cases hac
  exact Dict.nodup_keys_set ha _ _

/-- **C61**, late trains: at its first station a train leaves no earlier than its initial time plus all
delays given for it. -/
theorem C61_late (G : GoodData td st) (h : makeInput td st table t1 r delays = .ok (ts, tt))
    (hb : buildProblem ts tt dmax cat = .ok b) (hf : Feasible b σ)
    (hpos : ∀ d ∈ delays, 0 ≤ d.2) {t : Int} {rows : List Row} (ht : TableOf td t rows) {x : String}
    {row : Row} (hfs : FirstStation rows x row) {v : ℚ} (hv : InitialTime t1 row v) {d : ℚ}
    (hd : Departs ts tt b.dv σ (.int t) (.str x) d) : v + delayOf delays t ≤ d := by
  obtain ⟨-, h2, -⟩ := C07_notEarly hb hf hd
  unfold makeInput at h
  obtain ⟨skip, hskip, h⟩ := bind_ok h
  obtain ⟨ts', hts, h⟩ := bind_ok h
  obtain ⟨taus, htaus, h⟩ := bind_ok h
  obtain ⟨tt', htt, h⟩ := bind_ok h
  cases h
  unfold makeTimetable at htt
  obtain ⟨ic, hic, htt⟩ := bind_ok htt
  obtain ⟨pw, hpw, htt⟩ := bind_ok htt
  obtain ⟨sc, hsc, htt⟩ := bind_ok htt
  cases htt
  have hin := (C38_initial td G.trains.keys t1 ic hic).1 (key2 (.int t) (.str x)) v
  obtain ⟨u, hu, hle⟩ := addDelays_get hpos (ic := ic) (initial_nodup hic)
    (hin.2 ⟨t, rows, x, row, ht, hfs, rfl, hv⟩)
  exact le_trans hle (h2 u hu)

/-! ## C62: following trains -/

theorem sublist_pair_or {A : Type} {a b : A} {l : List A} (ha : a ∈ l) (hb : b ∈ l) (h : a ≠ b) :
    [a, b].Sublist l ∨ [b, a].Sublist l := by
  induction l with
  | nil => cases ha
  | cons x l ih =>
    rcases List.mem_cons.1 ha with rfl | ha'
    · rcases List.mem_cons.1 hb with rfl | hb'
      · exact absurd rfl h
      · exact .inl ((List.singleton_sublist.2 hb').cons_cons _)
    · rcases List.mem_cons.1 hb with rfl | hb'
      · exact .inr ((List.singleton_sublist.2 ha').cons_cons _)
      · exact (ih ha' hb').imp (·.cons _) (·.cons _)

theorem sum_nonneg' {l : List ℚ} (h : ∀ x ∈ l, 0 ≤ x) : 0 ≤ l.sum := List.sum_nonneg h

theorem headwayOf_nonneg {k : Nat} {l l' : List ℚ} (h : ∀ x ∈ l, 0 ≤ x) :
    0 ≤ (headwayOf k l l').getD 0 := by
  cases hh : headwayOf k l l' with
  | none => simp
  | some v =>
    unfold headwayOf at hh
    have hl : l ≠ [] := by rintro rfl; simp at hh
    have := (max?_le hh v).1 (le_refl v)
    have h0 := this _ (List.mem_map.2 ⟨0, List.mem_range.2 (List.length_pos_iff.2 hl), rfl⟩)
    have h1 : 0 ≤ ((l.drop 0).take k).sum := sum_nonneg' fun x hx => h x (by
      simpa using List.mem_of_mem_take hx)
    simp only [List.range_zero, List.map_nil, List.sum_nil, add_zero, Option.getD_some] at h0 ⊢
    exact le_trans h1 h0

theorem roundIf_nonneg {r : Int} {q : ℚ} (h : 0 ≤ q) : 0 ≤ roundIf r q := by
  unfold roundIf
  split
  · have := (pyRound_near q).2
    have h2 : (-1 : ℚ) < (pyRound q : ℚ) := by linarith
    have h3 : -1 < pyRound q := by exact_mod_cast h2
    exact_mod_cast (by omega : (0 : ℤ) ≤ pyRound q)
  · exact h

theorem Gen.headwaySame (g : Gen td st table t1 r ts tt) {t t' : Int} {rows rows' m m' : List Row}
    {x x2 : String} {w : ℚ} (hne : t ≠ t') (ht : TableOf td t rows) (ht' : TableOf td t' rows')
    (hc : Consecutive rows x x2 m) (hc' : Consecutive rows' x x2 m')
    (hsame : m.map (·.path) = m'.map (·.path))
    (hw : Headway tt (.int t) (.int t') (.str x) (.str x2) w) :
    w = roundIf r ((headwayOf (headwayK x x2) (timesOf m) (timesOf m')).getD 0) := by
  obtain ⟨w2, hw2, hh⟩ := g.headway t t' rows rows' x x2 m m' hne ht ht' hc hc'
  rw [C33_table_same g.data.trains ht ht' hc hc' hsame r] at hw2
  cases hw2
  unfold Headway at hw hh
  rw [hw] at hh
  exact Option.some.inj hh

/-- **C62.** Two trains of different rolling stock run over the same blocks from `p` to `x`, use the
same track there and go on: they leave `x` in the order in which they left `p`. Passing times of
blocks are not negative, and those of the track in `x` (rounded, if times are rounded) positive. Not
for the stations and blocks that the code leaves out; and missing are trains that end in a station
whose name contains the name of `x`. -/
theorem C62_order_partial (G : GoodData td st)
    (h : makeInput td st table t1 r delays = .ok (ts, tt)) (hm : AllMeet td)
    (hb : buildProblem ts tt dmax cat = .ok b) (hf : Feasible b σ) {t t' : Int}
    {rows rows' m m' : List Row} {p x : String} (hne : t ≠ t') (ht : TableOf td t rows)
    (ht' : TableOf td t' rows') (hc : Consecutive rows p x m) (hc' : Consecutive rows' p x m')
    (hline : m.map (·.path) = m'.map (·.path)) (hpos : ∀ w ∈ timesOf m ++ timesOf m', 0 ≤ w)
    {q q' : Row} (hq : q ∈ rows) (hq' : q' ∈ rows') (hs : q.station = some x)
    (hs' : q'.station = some x) (hsame : q.path = q'.path)
    (hstop : 0 < roundIf r (q.passingTime.getD 0) ∧ 0 < roundIf r (q'.passingTime.getD 0))
    (hx : x ∉ ["KO(KS)", "KO(IC)"])
    (hbl : q.path ∉ ["\"KO\", \"ST-M\", 1114, \"(N/A)\"", "\"KO\", \"ST-M\", 1113, \"(N/A)\"",
      "\"KO\", \"ST-M\", 1118, \"(N/A)\""]) (hst : ¬ Paired t t')
    (hend : ∀ n, EndsIn td st t n → ¬ x.toList <:+: n.toList)
    (hend' : ∀ n, EndsIn td st t' n → ¬ x.toList <:+: n.toList) {dp dp' d d' : ℚ}
    (hdp : Departs ts tt b.dv σ (.int t) (.str p) dp)
    (hdp' : Departs ts tt b.dv σ (.int t') (.str p) dp')
    (hd : Departs ts tt b.dv σ (.int t) (.str x) d)
    (hd' : Departs ts tt b.dv σ (.int t') (.str x) d') :
    (dp < dp' → d < d') ∧ (dp' < dp → d' < d) := by
  have g := gen_of_input G h
  have hkey : ∀ {t rows}, TableOf td t rows → t ∈ Dict.keys td := fun ht => by
    obtain ⟨info, hm⟩ := ht.mem
    exact List.mem_map.2 ⟨_, hm, rfl⟩
  have hv : ∀ {a b : Int}, a ≠ b → Val.int a ≠ .int b := fun h e => h (by cases e; rfl)
  -- the claim for the order in which the trains are listed in the table
  have main : ∀ {t t' : Int} {rows rows' m m' : List Row} {q q' : Row} {dp dp' d d' : ℚ},
      [t, t'].Sublist (Dict.keys td) → t ≠ t' → TableOf td t rows → TableOf td t' rows' →
      Consecutive rows p x m → Consecutive rows' p x m' → m.map (·.path) = m'.map (·.path) →
      (∀ w ∈ timesOf m ++ timesOf m', 0 ≤ w) → q ∈ rows → q' ∈ rows' → q.station = some x →
      q'.station = some x → q.path = q'.path →
      0 < roundIf r (q.passingTime.getD 0) ∧ 0 < roundIf r (q'.passingTime.getD 0) →
      q.path ∉ ["\"KO\", \"ST-M\", 1114, \"(N/A)\"", "\"KO\", \"ST-M\", 1113, \"(N/A)\"",
      "\"KO\", \"ST-M\", 1118, \"(N/A)\""] → ¬ Paired t t' →
      (∀ n, EndsIn td st t n → ¬ x.toList <:+: n.toList) →
      (∀ n, EndsIn td st t' n → ¬ x.toList <:+: n.toList) →
      Departs ts tt b.dv σ (.int t) (.str p) dp → Departs ts tt b.dv σ (.int t') (.str p) dp' →
      Departs ts tt b.dv σ (.int t) (.str x) d → Departs ts tt b.dv σ (.int t') (.str x) d' →
      (dp < dp' → d < d') ∧ (dp' < dp → d' < d) := by
    intro t t' rows rows' m m' q q' dp dp' d d' hsub hne ht ht' hc hc' hline hpos hq hq' hs hs' hsame
      hstop hbl hst hend hend' hdp hdp' hd hd'
    have hlast : ∀ {t : Int} {rows : List Row} {q : Row}, TableOf td t rows → q ∈ rows →
        q.station = some x → (∀ n, EndsIn td st t n → ¬ x.toList <:+: n.toList) →
        StopRow td t x q := by
      intro t rows q ht hq hs hend
      refine ⟨rows, ht, hq, hs, fun hl => hend x ?_ (List.infix_refl _)⟩
      exact (endsIn_iff G).2 ⟨rows, q, ht, hl, hs⟩
    have hst' : ∀ {t : Int} {q : Row} {w : ℚ}, StopRow td t x q → Stop tt (.int t) (.str x) w →
        w = roundIf r (q.passingTime.getD 0) := by
      intro t q w h1 h2
      have := g.stop t x q h1
      unfold Stop at this h2
      rw [h2] at this
      exact Option.some.inj this
    obtain ⟨gs, hgs, gr, hgr, hj, hj'⟩ := g.sameTrack ht ht' hq hq' hs hs' hsame hx hbl
    obtain ⟨dd, ls, h1, h2, lr, hlr, hl1, hl2⟩ := g.jd_together (Runs.of ht hc)
      (show Runs td t' p x (m.map (·.path)) by rw [hline]; exact Runs.of ht' hc')
    have hfo : Following ts (.int t) (.int t') (.str p) (.str x) :=
      ⟨hv hne, g.prev.2 ⟨t, x, rows, rfl, rfl, ht, .inl ⟨p, m, rfl, hc⟩⟩,
        g.prev.2 ⟨t', x, rows', rfl, rfl, ht', .inl ⟨p, m', rfl, hc'⟩⟩,
        ⟨dd, ls, h1, h2, lr, hlr, hl1, hl2, hv hne⟩, ⟨gs, hgs, gr, hgr, hj, hj'⟩, g.notSame hm hst⟩
    refine (C13_orderKept_partial hb g.namesOK g.wellFormed hf hfo (g.listed hsub _)
      (g.listed hsub _) (g.notExempt hend) (g.notExempt hend')).2 (by simp) (g.notTakes hm ht hc)
      (g.notTakes hm ht' hc') ?_ ?_ ?_ dp dp' d d' hdp hdp' hd hd'
    · rintro w (hw | hw)
      · rw [g.headwaySame hne ht ht' hc hc' hline hw]
        exact roundIf_nonneg (headwayOf_nonneg fun y hy => hpos y (by simp [hy]))
      · rw [g.headwaySame hne.symm ht' ht hc' hc hline.symm hw]
        exact roundIf_nonneg (headwayOf_nonneg fun y hy => hpos y (by simp [hy]))
    · rintro w (hw | hw)
      · rw [hst' (hlast ht hq hs hend) hw]; exact hstop.1
      · rw [hst' (hlast ht' hq' hs' hend') hw]; exact hstop.2
    · intro w hw
      have := g.res
      unfold Res at hw
      rw [hw] at this
      rw [Option.some.inj this]
      norm_num
  rcases sublist_pair_or (hkey ht) (hkey ht') hne with hsub | hsub
  · exact main hsub hne ht ht' hc hc' hline hpos hq hq' hs hs' hsame hstop hbl hst hend hend' hdp
      hdp' hd hd'
  · exact (main hsub hne.symm ht' ht hc' hc hline.symm (fun w hw => hpos w (by
      simp only [List.mem_append] at hw ⊢; exact hw.symm)) hq' hq hs' hs hsame.symm hstop.symm
      (hsame ▸ hbl) (fun hp => hst hp.symm) hend' hend hdp' hdp hd' hd).symm

/-! ## Examples -/

/-- the departures in the plan of the example -/
theorem Shuttle.departures : ∃ ts tt b,
    makeInput Shuttle.trains Shuttle.stations Shuttle.table "12:00" 0 [(1, 3)] = .ok (ts, tt) ∧
    buildProblem ts tt 20 .integer = .ok b ∧ Feasible b Shuttle.plan ∧
    ∀ t s d, (t, s, d) ∈ [(1, "A", 3), (1, "B", 9), (3, "A", 10), (3, "B", 18), (19, "C", 25),
      (19, "B", (31 : ℚ))] → Departs ts tt b.dv Shuttle.plan (.int t) (.str s) d := by
  have hdep : ∀ e ∈ [((1 : Int), "A", (3 : ℚ)), (1, "B", 9), (3, "A", 10), (3, "B", 18),
      (19, "C", 25), (19, "B", 31)], Shuttle.checkDep 0 [(1, 3)] e.1 e.2.1 e.2.2 = true := by
    decide +kernel
  obtain ⟨ts, tt, b, h, hb, hf⟩ := Shuttle.made
  exact ⟨ts, tt, b, h, hb, hf, fun t s d hm => Shuttle.departs_of_check h hb (hdep _ hm)⟩

theorem endsOnly_of_check {td : Trains} {st : Stations} {t : Int} {P : String → Prop}
    (h : ∀ e ∈ td, e.1 = t → ∀ row ∈ e.2.2.getLast?, ∀ q ∈ st, row.path ∈ q.2 → P q.1) {n : String}
    (he : EndsIn td st t n) : P n := by
  obtain ⟨tt, r, ht, hl, bs, hbs, hr⟩ := he
  obtain ⟨info, hm⟩ := ht.mem
  exact h _ hm rfl r hl _ hbs hr

/-- the hypotheses of `C57_opposite_partial`: train 3 runs from `B` to `C` and ends there, train 19
runs from `C` to `B` and goes on; no train starts in `B` against them -/
example : ∃ rows rows' m m', TableOf Shuttle.trains 3 rows ∧ TableOf Shuttle.trains 19 rows' ∧
    Consecutive rows "B" "C" m ∧ Consecutive rows' "C" "B" m' ∧
    m.map (·.path) = (m'.map (·.path)).reverse ∧ m ≠ [] ∧ ¬ Paired 3 19 ∧
    GoesOn Shuttle.trains Shuttle.stations "B" "C" 19 ∧ ∃ ts tt b,
    makeInput Shuttle.trains Shuttle.stations Shuttle.table "12:00" 0 [(1, 3)] = .ok (ts, tt) ∧
    buildProblem ts tt 20 .integer = .ok b ∧ Feasible b Shuttle.plan ∧
    Departs ts tt b.dv Shuttle.plan (.int 3) (.str "B") 18 ∧
    Departs ts tt b.dv Shuttle.plan (.int 19) (.str "C") 25 := by
  obtain ⟨ts, tt, b, h, hb, hf, hd⟩ := Shuttle.departures
  refine ⟨_, _, [{ path := "l3", passingTime := some 4 }], [{ path := "l3", passingTime := some 4 }],
    ⟨_, rfl⟩, ⟨_, rfl⟩, ⟨[_, _, _], _, _, _, rfl, rfl, rfl, by simp⟩,
    ⟨[], _, _, _, rfl, rfl, rfl, by simp⟩, rfl, by simp, by unfold Paired; decide, ⟨?_, .inl ?_⟩,
    ts, tt, b, h, hb, hf, hd _ _ _ (by simp), hd _ _ _ (by simp)⟩
  · exact fun he => endsOnly_of_check (P := (· ≠ "B")) (by decide +kernel) he rfl
  · refine before_asymm (by decide +kernel) ⟨["A"], [], [], rfl⟩

/-- the hypotheses of `C58_tracks_partial` and of `C62_order_partial`: trains 1 and 3 use block `b` in
`B` -/
example : ∃ rows rows' m m' q q', TableOf Shuttle.trains 1 rows ∧ TableOf Shuttle.trains 3 rows' ∧
    Consecutive rows "A" "B" m ∧ Consecutive rows' "A" "B" m' ∧
    m.map (·.path) = m'.map (·.path) ∧ (∀ w ∈ timesOf m ++ timesOf m', 0 ≤ w) ∧
    q ∈ rows ∧ q' ∈ rows' ∧ q.station = some "B" ∧ q'.station = some "B" ∧ q.path = q'.path ∧
    0 < roundIf 0 (q.passingTime.getD 0) ∧ 0 < roundIf 0 (q'.passingTime.getD 0) ∧
    "B" ∉ ["KO(KS)", "KO(IC)"] ∧
    q.path ∉ ["\"KO\", \"ST-M\", 1114, \"(N/A)\"", "\"KO\", \"ST-M\", 1113, \"(N/A)\"",
      "\"KO\", \"ST-M\", 1118, \"(N/A)\""] ∧ ¬ Paired 1 3 ∧
    (∀ n, EndsIn Shuttle.trains Shuttle.stations 1 n → ¬ "B".toList <:+: n.toList) ∧
    (∀ n, EndsIn Shuttle.trains Shuttle.stations 3 n → ¬ "B".toList <:+: n.toList) ∧ ∃ ts tt b,
    makeInput Shuttle.trains Shuttle.stations Shuttle.table "12:00" 0 [(1, 3)] = .ok (ts, tt) ∧
    buildProblem ts tt 20 .integer = .ok b ∧ Feasible b Shuttle.plan ∧
    Departs ts tt b.dv Shuttle.plan (.int 1) (.str "A") 3 ∧
    Departs ts tt b.dv Shuttle.plan (.int 3) (.str "A") 10 ∧
    Departs ts tt b.dv Shuttle.plan (.int 1) (.str "B") 9 ∧
    Departs ts tt b.dv Shuttle.plan (.int 3) (.str "B") 18 := by
  obtain ⟨ts, tt, b, h, hb, hf, hd⟩ := Shuttle.departures
  refine ⟨_, _,
    [{ path := "l1", passingTime := some 2 }, { path := "l2", passingTime := some 3 }],
    [{ path := "l1", passingTime := some 2 }, { path := "l2", passingTime := some 3 }],
    { path := "b", station := some "B", passingTime := some 1, dep := some "12:08" },
    { path := "b", station := some "B", passingTime := some 1, dep := some "12:18" },
    ⟨_, rfl⟩, ⟨_, rfl⟩, ⟨[], _, _, _, rfl, rfl, rfl, by simp⟩,
    ⟨[], _, _, _, rfl, rfl, rfl, by simp⟩, rfl, by simp [timesOf], by simp, by simp, rfl, rfl, rfl,
    by decide +kernel, by decide +kernel, by decide, by decide, by unfold Paired; decide,
    fun n he => endsOnly_of_check (P := fun n => ¬ "B".toList <:+: n.toList) ?_ he,
    fun n he => endsOnly_of_check (P := fun n => ¬ "B".toList <:+: n.toList) ?_ he,
    ts, tt, b, h, hb, hf, hd _ _ _ (by simp), hd _ _ _ (by simp), hd _ _ _ (by simp),
    hd _ _ _ (by simp)⟩ <;> decide +kernel

/-- the hypotheses of `C59_stock`: train 19 takes over from train 1 in block `c` -/
example : ∃ rows rows' m q v, TableOf Shuttle.trains 1 rows ∧ TableOf Shuttle.trains 19 rows' ∧
    Paired 1 19 ∧ Meets Shuttle.trains 1 19 "c" ∧ (∀ c, ¬ Meets Shuttle.trains 19 1 c) ∧
    BelongsTo Shuttle.stations "c" "C" ∧ Consecutive rows "B" "C" m ∧ rows'.head? = some q ∧
    q.turnaround = some v ∧ v = 6 ∧ ∃ ts tt b,
    makeInput Shuttle.trains Shuttle.stations Shuttle.table "12:00" 0 [(1, 3)] = .ok (ts, tt) ∧
    buildProblem ts tt 20 .integer = .ok b ∧ Feasible b Shuttle.plan ∧
    Departs ts tt b.dv Shuttle.plan (.int 1) (.str "B") 9 ∧
    Departs ts tt b.dv Shuttle.plan (.int 19) (.str "C") 25 := by
  obtain ⟨ts, tt, b, h, hb, hf, hd⟩ := Shuttle.departures
  refine ⟨_, _, [{ path := "l3", passingTime := some 4 }], _, 6, ⟨_, rfl⟩, ⟨_, rfl⟩,
    by unfold Paired; decide, ⟨⟨_, _, ⟨_, rfl⟩, rfl, rfl⟩, ⟨_, _, ⟨_, rfl⟩, rfl, rfl⟩⟩, ?_,
    ⟨["c", "c2"], by decide +kernel, by decide⟩, ⟨[_, _, _], _, _, _, rfl, rfl, rfl, by simp⟩, rfl,
    rfl, rfl, ts, tt, b, h, hb, hf, hd _ _ _ (by simp), hd _ _ _ (by simp)⟩
  rintro c ⟨⟨tt, r, ht, hl, rfl⟩, tt', r', ht', hh, he⟩
  have e1 : TableOf Shuttle.trains 19 _ := ⟨_, rfl⟩
  have e2 : TableOf Shuttle.trains 1 _ := ⟨_, rfl⟩
  cases ht.unique e1
  cases ht'.unique e2
  cases hl
  cases hh
  revert he
  decide

/-- the hypotheses of `C60_switches_partial`: train 3 passes switch 3 on its way into `B`, train 19 on its way
out -/
example : SameCells Shuttle.table ∧
    "B" ∉ ["KO(IC)", "KO(KS)"] ∧
    SwitchesAt Shuttle.trains Shuttle.table 3 "B" "in" [3] ∧
    SwitchesAt Shuttle.trains Shuttle.table 19 "B" "out" [3, 5] ∧ ¬ Paired 3 19 ∧ ∃ ts tt b,
    makeInput Shuttle.trains Shuttle.stations Shuttle.table "12:00" 0 [(1, 3)] = .ok (ts, tt) ∧
    buildProblem ts tt 20 .integer = .ok b ∧ Feasible b Shuttle.plan ∧
    PassesSwitches Shuttle.trains 0 (Departs ts tt b.dv Shuttle.plan) "B" 3 "in" 15 ∧
    PassesSwitches Shuttle.trains 0 (Departs ts tt b.dv Shuttle.plan) "B" 19 "out" 31 := by
  obtain ⟨ts, tt, b, h, hb, hf, hd⟩ := Shuttle.departures
  let e1 : PathRow := { prev := "l2", next := "b", switches := .textInt 3 }
  let e2 : PathRow := { prev := "b", next := "k1", switches := .textTuple [3, 5] }
  exact ⟨sameCells_of_check (by decide +kernel), by decide,
    ⟨_, ⟨_, rfl⟩, .inl ⟨rfl, [_, _, _], _, _, rfl, rfl, .inr ⟨⟨_, List.mem_cons_self, by simp⟩,
      [_, _], _, rfl, .inr ⟨e1,
        by simp [Shuttle.table, e1], .inl ⟨rfl, rfl⟩, rfl⟩⟩⟩⟩,
    ⟨_, ⟨_, rfl⟩, .inr ⟨rfl, [_, _], _, _, rfl, rfl, .inr ⟨⟨_, List.mem_cons_of_mem _
      List.mem_cons_self, by simp⟩, _, _, rfl, .inr ⟨e2, by simp [Shuttle.table, e2], .inl ⟨rfl, rfl⟩, rfl⟩⟩⟩⟩,
    by unfold Paired; decide, ts, tt, b, h, hb, hf,
    .inr ⟨rfl, _, "A", [{ path := "l1", passingTime := some 2 },
      { path := "l2", passingTime := some 3 }], 10, ⟨_, rfl⟩,
      ⟨[], _, _, _, rfl, rfl, rfl, by simp⟩, hd _ _ _ (by simp), by decide +kernel⟩,
    .inl ⟨rfl, hd _ _ _ (by simp)⟩⟩

/-- the hypotheses of `C61_timetable` and `C61_late`: train 1 leaves `A` at 3, which is its delay, and
`B` at 9; timetable 0 and 8 -/
example : ∃ rows m q row, TableOf Shuttle.trains 1 rows ∧ FirstDep rows "B" "12:08" ∧
    MinutesFrom "12:00" "12:08" 8 ∧ Consecutive rows "A" "B" m ∧ q ∈ rows ∧ q.station = some "B" ∧
    FirstStation rows "A" row ∧ InitialTime "12:00" row 0 ∧ delayOf [(1, 3)] 1 = 3 ∧ ∃ ts tt b,
    makeInput Shuttle.trains Shuttle.stations Shuttle.table "12:00" 0 [(1, 3)] = .ok (ts, tt) ∧
    buildProblem ts tt 20 .integer = .ok b ∧ Feasible b Shuttle.plan ∧
    Departs ts tt b.dv Shuttle.plan (.int 1) (.str "A") 3 ∧
    Departs ts tt b.dv Shuttle.plan (.int 1) (.str "B") 9 := by
  obtain ⟨ts, tt, b, h, hb, hf, hd⟩ := Shuttle.departures
  refine ⟨_, [{ path := "l1", passingTime := some 2 }, { path := "l2", passingTime := some 3 }],
    { path := "b", station := some "B", passingTime := some 1, dep := some "12:08" }, _, ⟨_, rfl⟩,
    ⟨[_, _, _], _, _, rfl, rfl, rfl, by simp⟩, calcTimeDiff_iff.1 (by decide +kernel),
    ⟨[], _, _, _, rfl, rfl, rfl, by simp⟩, by simp, rfl, ⟨[], _, rfl, rfl, by simp⟩,
    .inl ⟨_, rfl, calcTimeDiff_iff.1 (by decide +kernel)⟩, by decide +kernel,
    ts, tt, b, h, hb, hf, hd _ _ _ (by simp), hd _ _ _ (by simp)⟩

end Verif
