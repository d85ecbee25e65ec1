import Verif.Props.Safe

/-!
# C58 for all trains that leave a station

`Props/Safe` proves C58 for trains that come from another station. Here are also the trains that begin
in the station, and those that take over the rolling stock of a train that ends there.
-/

namespace Verif

variable {td : Trains} {st : Stations} {table : List PathRow} {t1 : String} {r : Int}
  {delays : List (Int × ℚ)} {ts : TrainSets} {tt : Timetable} {dmax : ℚ} {cat : Cat} {b : Built}
  {σ : LpVar → ℚ}

/-- train `t` comes to `x` at time `a`, from some station where it departs as in `D` -/
def ComesTo (td : Trains) (r : Int) (D : Val → Val → ℚ → Prop) (t : Int) (x : String) (a : ℚ) : Prop :=
  ∃ rows p m d, TableOf td t rows ∧ Consecutive rows p x m ∧ D (.int t) (.str p) d ∧
    a = d + roundIf r (timesOf m).sum

/-- `t0` hands its rolling stock over to `t` in `x` -/
def GivesTo (td : Trains) (st : Stations) (t0 t : Int) (x : String) : Prop :=
  Paired t0 t ∧ (∀ c, ¬ Meets td t t0 c) ∧ ∃ bl, Meets td t0 t bl ∧ BelongsTo st bl x

/-- The rolling stock of train `t` is in `x` from `a` to `d`, when `t` leaves: it comes to `x` as train
`t`, or as the only train that hands its rolling stock over to `t` there, or (`a = d`) it begins
in `x`. -/
def InStationFor (td : Trains) (st : Stations) (r : Int) (D : Val → Val → ℚ → Prop) (t : Int)
    (x : String) (a d : ℚ) : Prop :=
  D (.int t) (.str x) d ∧
  (ComesTo td r D t x a ∨
   (∃ t0, GivesTo td st t0 t x ∧ ComesTo td r D t0 x a ∧
     ∀ t0', Paired t0' t → (∃ bl, Meets td t0' t bl) → t0' = t0) ∨
   ((∃ rows row, TableOf td t rows ∧ FirstStation rows x row) ∧
     (∀ t0 bl, Paired t0 t → ¬ Meets td t0 t bl) ∧ a = d))

/-- train `t` ends in another station whose name contains the name of `x` -/
def NameInside (td : Trains) (st : Stations) (t : Int) (x : String) : Prop :=
  ∃ n, n ≠ x ∧ EndsIn td st t n ∧ x.toList <:+: n.toList

theorem Gen.departs_leaves (g : Gen td st table t1 r ts tt)
    (hb : buildProblem ts tt dmax cat = .ok b) {t : Int} {x : String} {d : ℚ}
    (hd : Departs ts tt b.dv σ (.int t) (.str x) d) : Leaves td t x := by
  obtain ⟨e, v, -, hv, -⟩ := hd
  obtain ⟨t2, x2, e1, e2, hl⟩ := g.leaves_of_delay
    (((C16_exactly (parts hb).hdv).1 (.int t) (.str x)).1 ⟨v, hv⟩)
  cases e1; cases e2
  exact hl

theorem Gen.departs_stays (g : Gen td st table t1 r ts tt)
    (hb : buildProblem ts tt dmax cat = .ok b) {t : Int} {x : String} {d : ℚ}
    (hd : Departs ts tt b.dv σ (.int t) (.str x) d) (hin : ¬ NameInside td st t x) :
    ∀ n, EndsIn td st t n → ¬ x.toList <:+: n.toList := by
  intro n hn hx
  by_cases e : n = x
  · subst e
    exact ((leaves_iff g.data).1 (g.departs_leaves hb hd)).2 hn
  · exact hin ⟨n, e, hn, hx⟩

/-- arrivals in the sense of the rules -/
theorem Gen.inStation_arrives (g : Gen td st table t1 r ts tt) (hm : AllMeet td)
    (hb : buildProblem ts tt dmax cat = .ok b) (hf : Feasible b σ) {t : Int} {x : String} {a d : ℚ}
    (h : InStationFor td st r (Departs ts tt b.dv σ) t x a d) :
    ∃ a', a' ≤ a ∧ Arrives ts tt (Departs ts tt b.dv σ) (.int t) (.str x) a' := by
  obtain ⟨hd, ⟨rows, p, m, dp, ht, hc, hdp, rfl⟩ | ⟨t0, ⟨hpair, hone, bl, hmeet, hbl⟩,
    ⟨rows, p, m, dp, ht, hc, hdp, rfl⟩, huniq⟩ | ⟨⟨rows, row, ht, hfs⟩, hno, rfl⟩⟩ := h
  · exact ⟨_, le_rfl, .inr (.inl ⟨g.notTakes hm ht hc, .str p, dp, _,
      g.prev.2 ⟨t, x, rows, rfl, rfl, ht, .inl ⟨p, m, rfl, hc⟩⟩, (by simp), hdp,
      g.pass t rows p x m ht hc, rfl⟩)⟩
  · refine ⟨_, le_rfl, .inl ⟨.int t0, .str p, dp, _, ?_,
      g.prev.2 ⟨t0, x, rows, rfl, rfl, ht, .inl ⟨p, m, rfl, hc⟩⟩, hdp, g.pass t0 rows p x m ht hc, rfl⟩⟩
    obtain ⟨o, ho, hJ⟩ := g.Jround
    have hkey : ∀ {t rows}, TableOf td t rows → t ∈ Dict.keys td := fun ht => by
      obtain ⟨info, hm⟩ := ht.mem
      exact List.mem_map.2 ⟨_, hm, rfl⟩
    have hkt : t ∈ Dict.keys td := by
      obtain ⟨rows', row, ht', -, -⟩ := hmeet.2
      exact hkey ht'
    obtain ⟨l, hl, hp⟩ := (C31_computed td st g.data.stations.1 hm o ho x t0 t).2
      ⟨hkey ht, hkt, ⟨bl, hmeet, hbl⟩, hpair.imp id fun e => ⟨e, hone⟩⟩
    have hget : Dict.get? ts.Jround (.str x) = some (l.map fun p => (intKey p.1, intKey p.2)) := by
      rw [hJ]
      exact (get?_map_key strKey_inj _ o x).trans (by rw [hl]; rfl)
    refine ⟨_, hget, ?_, by simp⟩
    cases hfind : (l.map fun p => (intKey p.1, intKey p.2)).find? (fun p => p.2 = Val.int t) with
    | none =>
      rw [List.find?_eq_none] at hfind
      exact absurd (by simp [intKey]) (hfind (intKey t0, intKey t) (List.mem_map.2 ⟨_, hp, rfl⟩))
    | some q =>
      have h2 := List.find?_some hfind
      obtain ⟨x', u, u', e1, e2, -, -, hp', bl', hmm, -⟩ := g.round hm hget (List.mem_of_find?_eq_some hfind)
      subst e2
      simp only [decide_eq_true_eq] at h2
      cases h2
      rw [huniq u hp' ⟨bl', hmm⟩]
  · obtain ⟨-, -, e, he, hle, -⟩ := C07_notEarly hb hf hd
    refine ⟨e, hle, .inr (.inr ⟨?_, g.prev.2 ⟨t, x, rows, rfl, rfl, ht, .inr ⟨rfl, row, hfs⟩⟩, he⟩)⟩
    rintro k ⟨ps, h1, h2, -⟩
    obtain ⟨x', u, u', e1, e2, -, -, hp', bl', hmm, -⟩ := g.round hm h1 (List.mem_of_find?_eq_some h2)
    cases e2
    exact hno u bl' hp' hmm

/-- **C58.** Two trains of different rolling stock leave `x` from the same track (a common block of
`x`): the rolling stock of one of them comes to `x` only after the other train has left. The trains
may come from elsewhere, begin in `x`, or take over the rolling stock of a train that ends there. Not
for the stations and blocks that the code leaves out; and missing are trains that end in another
station whose name contains the name of `x`, which the code leaves out too (`C58_false`). -/
theorem C58_stays_partial (G : GoodData td st)
    (h : makeInput td st table t1 r delays = .ok (ts, tt)) (hm : AllMeet td)
    (hb : buildProblem ts tt dmax cat = .ok b) (hf : Feasible b σ) {t t' : Int}
    {rows rows' : List Row} {x : String} (hne : t ≠ t') (ht : TableOf td t rows)
    (ht' : TableOf td t' rows') {q q' : Row} (hq : q ∈ rows) (hq' : q' ∈ rows')
    (hs : q.station = some x) (hs' : q'.station = some x) (hsame : q.path = q'.path)
    (hx : x ∉ ["KO(KS)", "KO(IC)"])
    (hbl : q.path ∉ ["\"KO\", \"ST-M\", 1114, \"(N/A)\"", "\"KO\", \"ST-M\", 1113, \"(N/A)\"",
      "\"KO\", \"ST-M\", 1118, \"(N/A)\""]) (hst : ¬ Paired t t')
    (hin : ¬ NameInside td st t x) (hin' : ¬ NameInside td st t' x) {a a' d d' : ℚ}
    (hd : InStationFor td st r (Departs ts tt b.dv σ) t x a d)
    (hd' : InStationFor td st r (Departs ts tt b.dv σ) t' x a' d') : d ≤ a' ∨ d' ≤ a := by
  have g := gen_of_input G h
  have hend := g.departs_stays hb hd.1 hin
  have hend' := g.departs_stays hb hd'.1 hin'
  obtain ⟨gs, hgs, gr, hgr, hj, hj'⟩ := g.sameTrack ht ht' hq hq' hs hs' hsame hx hbl
  have hcont : ∀ {t : Int}, (∀ n, EndsIn td st t n → ¬ x.toList <:+: n.toList) →
      ∀ k, ¬ ContinuedBy ts (.int t) (.str x) k := by
    intro t hend k hk
    obtain ⟨x', a, a', e1, e2, -, he⟩ := g.continued hm hk
    cases e1; cases e2
    exact hend x he (List.infix_refl _)
  obtain ⟨res, hres, hall⟩ := C04_stationTrack_partial hb g.namesOK hf (Dict.mem_of_get? hgs) hgr
    (j := .int t) (jp := .int t') hj hj'
    (fun e => hne (by cases e; rfl)) (g.notSame hm hst) (g.notExempt hend) (g.notExempt hend')
    (hcont hend) (hcont hend')
  have hres0 : res = 0 := by
    rcases hres with ⟨⟨l, hl, -⟩, -⟩ | ⟨-, h0⟩
    · rw [g.noAdd] at hl; cases hl
    · exact h0
  subst hres0
  obtain ⟨a1, h1, A⟩ := g.inStation_arrives hm hb hf hd
  obtain ⟨a2, h2, A'⟩ := g.inStation_arrives hm hb hf hd'
  rcases hall d a1 d' a2 hd.1 hd'.1 A A' with h | h
  · left; linarith
  · right; linarith

/-! ## Example -/

namespace Depot

def stations : Stations := [("A", ["a", "a2"]), ("C", ["c"])]

/-- Train 5 begins in `C`; train 1 comes from `A` to the same track, and train 19 takes over its
rolling stock. -/
def trains : Trains :=
  [(5, (["KS - Os"],
    [{ path := "c", station := some "C", passingTime := some 1, dep := some "12:02" },
     { path := "k1", passingTime := some 5 },
     { path := "a2", station := some "A", passingTime := some 0 }])),
   (1, (["KS - Os"],
    [{ path := "a", station := some "A", passingTime := some 1, dep := some "12:00" },
     { path := "l1", passingTime := some 4 },
     { path := "c", station := some "C", passingTime := some 0 }])),
   (19, (["KS - Os"],
    [{ path := "c", station := some "C", passingTime := some 1, turnaround := some 6,
       dep := some "12:20" },
     { path := "k1", passingTime := some 5 },
     { path := "a2", station := some "A", passingTime := some 0 }]))]

def paths : List PathRow :=
  [{ prev := "a", next := "l1", switches := .textInt 1 },
   { prev := "k1", next := "a2", switches := .textInt 2 },
   { prev := "c", next := "k1", switches := .textInt 3 },
   { prev := "l1", next := "c", switches := .textInt 4 }]

theorem good : GoodData trains stations where
  trains := ⟨by decide +kernel, by unfold OnceEach; decide +kernel, by unfold BlocksOnce; decide +kernel⟩
  stations := wfStations_of_check (by decide +kernel) (by decide +kernel)
  tagged := tagged_of_check (wfStations_of_check (by decide +kernel) (by decide +kernel)).1
    (by decide +kernel)
  names := by
    have h : ∀ e ∈ stations, e.1 = "A" ∨ e.1 = "C" := by decide +kernel
    intro e he
    rcases h e he with h | h <;> rw [h] <;> decide

def checkPlan : Bool :=
  match makeInput trains stations paths "12:00" 0 [] with
  | .ok (ts, tt) => checkAll ts tt 20 .integer Shuttle.plan &&
      checkDeparts ts tt 20 .integer Shuttle.plan (.int 5) (.str "C") 2 &&
      checkDeparts ts tt 20 .integer Shuttle.plan (.int 1) (.str "A") 0 &&
      checkDeparts ts tt 20 .integer Shuttle.plan (.int 19) (.str "C") 20
  | .error _ => false

theorem made : ∃ ts tt b, makeInput trains stations paths "12:00" 0 [] = .ok (ts, tt) ∧
    buildProblem ts tt 20 .integer = .ok b ∧ Feasible b Shuttle.plan ∧
    Departs ts tt b.dv Shuttle.plan (.int 5) (.str "C") 2 ∧
    Departs ts tt b.dv Shuttle.plan (.int 1) (.str "A") 0 ∧
    Departs ts tt b.dv Shuttle.plan (.int 19) (.str "C") 20 := by
  have h : checkPlan = true := by decide +kernel
  unfold checkPlan at h
  split at h
  · rename_i ts tt hi
    simp only [Bool.and_eq_true] at h
    obtain ⟨⟨⟨h1, h2⟩, h3⟩, h4⟩ := h
    obtain ⟨b, hb, hf⟩ := feasible_of_check h1
      (fun v j s hv => by
        have : Shuttle.plan v = 0 := by unfold Shuttle.plan; rw [hv]
        rw [this]; exact ⟨le_refl _, by norm_num, 0, by simp⟩)
      (fun v a b c d hv => .inr (by unfold Shuttle.plan; rw [hv]))
    exact ⟨ts, tt, b, hi, hb, hf, departs_of_check hb h2, departs_of_check hb h3,
      departs_of_check hb h4⟩
  · cases h

theorem meet : AllMeet trains := by
  have hk : ∀ n ∈ Dict.keys trains, 10 * n + 9 ∈ Dict.keys trains → n = 1 := by decide +kernel
  intro n h1 h2
  rw [hk n h1 h2]
  exact ⟨"c", .inl ⟨⟨_, _, ⟨_, rfl⟩, rfl, rfl⟩, ⟨_, _, ⟨_, rfl⟩, rfl, rfl⟩⟩⟩

/-- the hypotheses of `C58_stays_partial`: train 5 begins in block `c` and leaves at 2; the rolling
stock of train 19 comes there as train 1 at 4 and leaves at 20 -/
example : ∃ rows rows' q q', TableOf trains 5 rows ∧ TableOf trains 19 rows' ∧ q ∈ rows ∧ q' ∈ rows' ∧
    q.station = some "C" ∧ q'.station = some "C" ∧ q.path = q'.path ∧ q.path = "c" ∧ ¬ Paired 5 19 ∧
    ¬ NameInside trains stations 5 "C" ∧ ¬ NameInside trains stations 19 "C" ∧ ∃ ts tt b,
    makeInput trains stations paths "12:00" 0 [] = .ok (ts, tt) ∧
    buildProblem ts tt 20 .integer = .ok b ∧ Feasible b Shuttle.plan ∧
    InStationFor trains stations 0 (Departs ts tt b.dv Shuttle.plan) 5 "C" 2 2 ∧
    InStationFor trains stations 0 (Departs ts tt b.dv Shuttle.plan) 19 "C" 4 20 := by
  obtain ⟨ts, tt, b, h, hb, hf, h1, h2, h3⟩ := made
  have hk : ∀ {t : Int} {c : String}, FirstBlock trains t c → t ∈ Dict.keys trains := by
    rintro t c ⟨rows, row, ht, -, -⟩
    obtain ⟨info, hm⟩ := ht.mem
    exact List.mem_map.2 ⟨_, hm, rfl⟩
  have hk' : ∀ {t : Int} {c : String}, LastBlock trains t c → t ∈ Dict.keys trains := by
    rintro t c ⟨rows, row, ht, -, -⟩
    obtain ⟨info, hm⟩ := ht.mem
    exact List.mem_map.2 ⟨_, hm, rfl⟩
  have hkeys : Dict.keys trains = [5, 1, 19] := rfl
  refine ⟨_, _, _, _, ⟨_, rfl⟩, ⟨_, rfl⟩, List.mem_cons_self, List.mem_cons_self, rfl, rfl, rfl, rfl,
    by unfold Paired; decide, ?_, ?_, ts, tt, b, h, hb, hf,
    ⟨h1, .inr (.inr ⟨⟨_, _, ⟨_, rfl⟩, [], _, rfl, rfl, by simp⟩, ?_, rfl⟩)⟩,
    ⟨h3, .inr (.inl ⟨1, ⟨by unfold Paired; decide, ?_, "c",
      ⟨⟨_, _, ⟨_, rfl⟩, rfl, rfl⟩, ⟨_, _, ⟨_, rfl⟩, rfl, rfl⟩⟩, ⟨_, List.mem_cons_of_mem _
        List.mem_cons_self, List.mem_cons_self⟩⟩,
      ⟨_, "A", [{ path := "l1", passingTime := some 4 }], 0, ⟨_, rfl⟩,
        ⟨[], _, _, _, rfl, rfl, rfl, by simp⟩, h2, by decide +kernel⟩, ?_⟩)⟩⟩
  · rintro ⟨n, -, he, hx⟩
    exact endsOnly_of_check (P := fun n => ¬ "C".toList <:+: n.toList) (by decide +kernel) he hx
  · rintro ⟨n, -, he, hx⟩
    exact endsOnly_of_check (P := fun n => ¬ "C".toList <:+: n.toList) (by decide +kernel) he hx
  · intro t0 bl hp hme
    have := hk' hme.1
    rw [hkeys] at this
    unfold Paired at hp
    simp only [List.mem_cons, List.not_mem_nil, or_false] at this
    omega
  · rintro c ⟨⟨tt, r, ht, hl, rfl⟩, tt', r', ht', hh, he⟩
    have e1 : TableOf trains 19 _ := ⟨_, rfl⟩
    have e2 : TableOf trains 1 _ := ⟨_, rfl⟩
    cases ht.unique e1
    cases ht'.unique e2
    cases hl
    cases hh
    revert he
    decide
  · rintro t0 hp ⟨bl, hme⟩
    have := hk' hme.1
    rw [hkeys] at this
    unfold Paired at hp
    simp only [List.mem_cons, List.not_mem_nil, or_false] at this
    omega

end Depot

end Verif
