import Verif.Examples.Shuttle
import Verif.Props.Rules
import Verif.Props.Order

/-!
# C47, C48: the input generated from the tables, put into the optimisation

`makeInput` is what the scripts compute from the tables; `GoodData` are the assumptions on the tables.
-/

namespace Verif

variable {td : Trains} {st : Stations} {table : List PathRow} {t1 : String} {r : Int}
  {delays : List (Int × ℚ)} {ts : TrainSets} {tt : Timetable} {dmax : ℚ} {cat : Cat} {b : Built}
  {σ : LpVar → ℚ}

/-! ## C47 -/

/-- **C47.** No time is missing: earliest departures exist for all departures, the headways of all
pairs of a group of `Jd`, and running and stopping times on the way to every departure. -/
theorem C47_lookups (G : GoodData td st) (h : makeInput td st table t1 r delays = .ok (ts, tt)) :
    (∀ j s, HasDelay ts j s → ∃ e, earliestDepTime ts.paths tt j s = .ok e) ∧
    (∀ e ∈ ts.Jd, ∀ e2 ∈ e.2, ∀ g ∈ e2.2, ∀ j ∈ g, ∀ jp ∈ g, j ≠ jp →
      (∃ e', earliestDepTime ts.paths tt j e.1 = .ok e') ∧ ∃ w, Headway tt j jp e.1 e2.1 w) ∧
    (∀ j s p, HasDelay ts j s → PrevOf ts j s p → p ≠ .none →
      (∃ e, earliestDepTime ts.paths tt j p = .ok e) ∧ (∃ w, Pass tt j p s w) ∧
      ∃ w, Stop tt j s w) := by
  have g := gen_of_input G h
  refine ⟨?_, ?_, ?_⟩
  · intro j s hd
    obtain ⟨t, x, rfl, rfl, hl⟩ := g.leaves_of_delay hd
    exact g.edt hl
  · intro e he e2 he2 gr hg j hj jp hjp hne
    obtain ⟨x, x2, l, h1, h2, rfl, -, hr⟩ := g.jd_mem he he2 hg
    obtain ⟨t, ht, rfl⟩ := List.mem_map.1 hj
    obtain ⟨t', ht', rfl⟩ := List.mem_map.1 hjp
    obtain ⟨b, hb⟩ := hr t ht
    obtain ⟨b', hb'⟩ := hr t' ht'
    rw [h1, h2]
    refine ⟨g.edt (hb.leaves G), ?_⟩
    obtain ⟨w, hw⟩ := g.headway' (fun e => hne (by rw [e])) hb hb'
    exact ⟨w, tauHeadway_ok.1 hw⟩
  · intro j s p hd hp hpn
    obtain ⟨t, x, rfl, rfl, hl⟩ := g.leaves_of_delay hd
    obtain ⟨t', x', rows, e1, e2, ht, ⟨x0, mid, rfl, hc⟩ | ⟨rfl, -⟩⟩ := g.prev.1 hp
    · cases e1; cases e2
      obtain ⟨w, hw⟩ := g.pass' (Runs.of ht hc)
      obtain ⟨row, hrow⟩ := hl
      exact ⟨g.edt (leaves_of_next G ht hc), ⟨w, tauPass_ok.1 hw⟩, _, g.stop t x row hrow⟩
    · exact absurd rfl hpn

/-- **C47**, the builders: minimal spans and minimal stays are built without an exception if in
addition the trains `n` and `10 n + 9` meet. -/
theorem C47_built (G : GoodData td st) (h : makeInput td st table t1 r delays = .ok (ts, tt))
    (hm : AllMeet td) (dmax : ℚ) (cat : Cat) :
    ∃ dv y, delayVariables ts dmax cat = .ok dv ∧ orderVariables ts = .ok y ∧
      (∃ cs, minimalSpan tt dv y ts dmax = .ok cs) ∧ ∃ cs, minimalStay tt dv ts = .ok cs := by
  have g := gen_of_input G h
  obtain ⟨dv, hdv⟩ := g.delayVariables dmax cat
  obtain ⟨y, hy⟩ := g.orderVariables
  exact ⟨dv, y, hdv, hy, g.minimalSpan hm hdv hy, g.minimalStay hm hdv⟩

/-- the hypotheses of `C47_lookups` and `C47_built`; the headway of train 3 after train 1 -/
example : GoodData Shuttle.trains Shuttle.stations ∧ AllMeet Shuttle.trains ∧ ∃ ts tt,
    makeInput Shuttle.trains Shuttle.stations Shuttle.table "12:00" 0 [(1, 3)] = .ok (ts, tt) ∧
    Headway tt (.int 1) (.int 3) (.str "A") (.str "B") 5 := by
  refine ⟨Shuttle.good, Shuttle.meet, ?_⟩
  have : (match makeInput Shuttle.trains Shuttle.stations Shuttle.table "12:00" 0 [(1, 3)] with
    | .ok (_, tt) => decide (Dict.get? tt.tauHeadway "1_3_A_B" = some 5)
    | .error _ => false) = true := by decide +kernel
  split at this
  · rename_i ts tt h
    have h2 := of_decide_eq_true this
    exact ⟨ts, tt, h, h2⟩
  · cases this

/-! ## C48 -/

/-- **C48.** In every feasible plan two trains that run over the same blocks from `x` to `x2` keep
the blocks apart: one of them enters every block only after the other has left the `k`-th block
from there, if both run at minimal running times; with rounding (`r = 1`) up to half a minute. Such
trains are always together in some group of `Jd`. -/
theorem C48_blocks (G : GoodData td st) (h : makeInput td st table t1 r delays = .ok (ts, tt))
    (hb : buildProblem ts tt dmax cat = .ok b) (hf : Feasible b σ) {t t' : Int}
    {rows rows' m m' : List Row} {x x2 : String} (hne : t ≠ t') (ht : TableOf td t rows)
    (ht' : TableOf td t' rows') (hc : Consecutive rows x x2 m) (hc' : Consecutive rows' x x2 m')
    (hsame : m.map (·.path) = m'.map (·.path)) {d d' : ℚ}
    (hd : Departs ts tt b.dv σ (.int t) (.str x) d)
    (hd' : Departs ts tt b.dv σ (.int t') (.str x) d') :
    BlocksApart (if r = 1 then 1 / 2 else 0) (headwayK x x2) d (timesOf m) d' (timesOf m') ∨
    BlocksApart (if r = 1 then 1 / 2 else 0) (headwayK x x2) d' (timesOf m') d (timesOf m) := by
  have g := gen_of_input G h
  obtain ⟨dd, gs, h1, h2, gr, hgr, hj, hj'⟩ := g.jd_together (Runs.of ht hc)
    (show Runs td t' x x2 (m.map (·.path)) by rw [hsame]; exact Runs.of ht' hc')
  have hnev : Val.int t ≠ .int t' := fun e => hne (by cases e; rfl)
  obtain ⟨w, w', hw, hw', hall⟩ := C01_headway hb g.namesOK hf (Dict.mem_of_get? h1)
    (Dict.mem_of_get? h2) hgr hj hj' hnev
  have hlen : (timesOf m).length = (timesOf m').length := by
    have := congrArg List.length hsame
    simpa [timesOf] using this
  -- the headway in the table is the one of the formula
  have key : ∀ {t t' : Int} {rows rows' m m' : List Row} {w : ℚ}, t ≠ t' → TableOf td t rows →
      TableOf td t' rows' → Consecutive rows x x2 m → Consecutive rows' x x2 m' →
      m.map (·.path) = m'.map (·.path) → Headway tt (.int t) (.int t') (.str x) (.str x2) w →
      w = roundIf r ((headwayOf (headwayK x x2) (timesOf m) (timesOf m')).getD 0) := by
    intro t t' rows rows' m m' w hne ht ht' hc hc' hsame hw
    obtain ⟨w2, hw2, hh⟩ := g.headway t t' rows rows' x x2 m m' hne ht ht' hc hc'
    rw [C33_table_same G.trains ht ht' hc hc' hsame r] at hw2
    cases hw2
    unfold Headway at hw hh
    rw [hw] at hh
    exact Option.some.inj hh
  have apart : ∀ {m m' : List Row} {w d d' : ℚ}, (timesOf m).length = (timesOf m').length →
      w = roundIf r ((headwayOf (headwayK x x2) (timesOf m) (timesOf m')).getD 0) → d + w ≤ d' →
      BlocksApart (if r = 1 then 1 / 2 else 0) (headwayK x x2) d (timesOf m) d' (timesOf m') := by
    intro m m' w d d' hlen hw hle
    by_cases hnil : timesOf m = []
    · intro i hi; rw [hnil] at hi; cases hi
    obtain ⟨h0, hh0⟩ := (C33_defined (headwayK x x2) (timesOf m) (timesOf m')).2 hnil
    rw [hh0] at hw
    refine (C33_formula _ (headwayK_pos x x2) _ _ hlen h0 hh0 _ _ _).1 ?_
    rw [hw] at hle
    simp only [Option.getD_some, roundIf] at hle
    split at hle
    · rename_i hr
      rw [if_pos hr]
      have := (pyRound_near h0).2
      linarith
    · rename_i hr
      rw [if_neg hr]; linarith
  rcases hall d d' hd hd' with hle | hle
  · exact .inl (apart hlen (key hne ht ht' hc hc' hsame hw) hle)
  · exact .inr (apart hlen.symm (key hne.symm ht' ht hc' hc hsame.symm hw') hle)

/-- the hypotheses of `C48_blocks`: train 1 leaves `A` at 3, train 3 at 10; both run over the blocks
`l1`, `l2` -/
example : ∃ ts tt b, GoodData Shuttle.trains Shuttle.stations ∧
    makeInput Shuttle.trains Shuttle.stations Shuttle.table "12:00" 0 [(1, 3)] = .ok (ts, tt) ∧
    buildProblem ts tt 20 .integer = .ok b ∧ Feasible b Shuttle.plan ∧
    Departs ts tt b.dv Shuttle.plan (.int 1) (.str "A") 3 ∧
    Departs ts tt b.dv Shuttle.plan (.int 3) (.str "A") 10 ∧
    ∃ rows rows' m m', TableOf Shuttle.trains 1 rows ∧ TableOf Shuttle.trains 3 rows' ∧
      Consecutive rows "A" "B" m ∧ Consecutive rows' "A" "B" m' ∧
      m.map (·.path) = ["l1", "l2"] ∧ m'.map (·.path) = ["l1", "l2"] := by
  have hdep : Shuttle.checkDep 0 [(1, 3)] 1 "A" 3 = true ∧
      Shuttle.checkDep 0 [(1, 3)] 3 "A" 10 = true := by decide +kernel
  obtain ⟨ts, tt, b, h, hb, hf⟩ := Shuttle.made
  refine ⟨ts, tt, b, Shuttle.good, h, hb, hf, Shuttle.departs_of_check h hb hdep.1,
    Shuttle.departs_of_check h hb hdep.2, _, _,
    [{ path := "l1", passingTime := some 2 }, { path := "l2", passingTime := some 3 }],
    [{ path := "l1", passingTime := some 2 }, { path := "l2", passingTime := some 3 }],
    ⟨_, rfl⟩, ⟨_, rfl⟩, ⟨[], _, _, _, rfl, rfl, rfl, by simp⟩,
    ⟨[], _, _, _, rfl, rfl, rfl, by simp⟩, rfl, rfl⟩

end Verif
