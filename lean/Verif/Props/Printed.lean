import Verif.Model.Print
import Verif.Props.Reported
import Verif.Proofs.Integral
import Verif.Props.Taus

/-!
# C50: printed arrivals agree with the optimised plan
-/

namespace Verif

theorem pyInt_int (n : ℤ) : pyInt (n : ℚ) = n := by
  unfold pyInt; split <;> simp

theorem pyInt_of {q : ℚ} (h : IsInt q) : ((pyInt q : ℤ) : ℚ) = q := by
  obtain ⟨n, rfl⟩ := h
  rw [pyInt_int]

theorem pyRound_of {q : ℚ} (h : IsInt q) : ((pyRound q : ℤ) : ℚ) = q := by
  obtain ⟨n, rfl⟩ := h
  unfold pyRound
  simp

variable {ts : TrainSets} {tt : Timetable} {dmax : ℚ} {cat : Cat} {b : Built} {σ : LpVar → ℚ}
  {p : Problem} {pass : Dict String ℚ} {skip : Dict Val Val} {tref : ℤ}

/-- the row written for `s` in one pass through the loop -/
def rowAt (p : Problem) (ts : TrainSets) (tt : Timetable) (pass : Dict String ℚ)
    (dmax : ℚ) (tref : ℤ) (sol : LpVar → ℚ) (j s : Val) (acc : PrintState) (row : Printed) : Prop :=
  ∃ delta x, impactToObjective p tt sol j s dmax = .ok delta ∧
    delayAndActualTime ts tt p sol j s = .ok x ∧
    row = { printArrive pass tref j s acc with
      departure := some (tref + pyInt x.2.1)
      secondaryDelay := some (pyInt x.1)
      conflictedDeparture := some (tref + pyInt x.2.2)
      impact := some delta }

theorem printStep_ok {j s : Val} {acc acc' : PrintState}
    (h : printStep p ts tt pass skip dmax tref σ j acc s = .ok acc') :
    (Dict.get? skip j = some s ∧
      acc' = { acc with sched := Dict.set acc.sched s (printArrive pass tref j s acc) }) ∨
    (Dict.get? skip j ≠ some s ∧ ∃ delta x, impactToObjective p tt σ j s dmax = .ok delta ∧
      delayAndActualTime ts tt p σ j s = .ok x ∧
      acc' = ⟨s, x.2.1, x.2.2, Dict.set acc.sched s { printArrive pass tref j s acc with
        departure := some (tref + pyInt x.2.1)
        secondaryDelay := some (pyInt x.1)
        conflictedDeparture := some (tref + pyInt x.2.2)
        impact := some delta }⟩) := by
  unfold printStep at h
  simp only at h
  split at h
  · rename_i hs
    cases h
    exact .inl ⟨hs, rfl⟩
  · rename_i hs
    obtain ⟨delta, h1, h⟩ := bind_ok h
    obtain ⟨x, h2, h⟩ := bind_ok h
    cases h
    exact .inr ⟨hs, delta, x, h1, h2, rfl⟩

/-- later stations do not change the row of `s` -/
theorem print_keep {j s : Val} {l : List Val} {acc acc' : PrintState}
    (h : loop l (printStep p ts tt pass skip dmax tref σ j) acc = .ok acc') (hs : s ∉ l) :
    Dict.get? acc'.sched s = Dict.get? acc.sched s := by
  refine loop_inv h (fun a => Dict.get? a.sched s = Dict.get? acc.sched s) rfl ?_
  intro x hx a a' ha hst
  have hne : s ≠ x := fun h => hs (h ▸ hx)
  rcases printStep_ok hst with ⟨_, rfl⟩ | ⟨_, delta, y, _, _, rfl⟩ <;>
  · simp only [Dict.get?_set, if_neg hne]
    exact ha

/-- The row of `s` in the schedule of the train, when `p` is the station before it and not
skipped. -/
theorem printTrain_row {j s q : Val} {l r : List Val}
    (hpath : Dict.get? ts.paths j = some (l ++ q :: s :: r)) (hnd : (l ++ q :: s :: r).Nodup)
    (hq : Dict.get? skip j ≠ some q) {sch : Dict Val Printed}
    (h : printTrain p ts tt pass skip dmax tref σ j = .ok sch) :
    ∃ xq acc row, delayAndActualTime ts tt p σ j q = .ok xq ∧ Dict.get? sch s = some row ∧
      acc = (⟨q, xq.2.1, xq.2.2, acc.sched⟩ : PrintState) ∧
      ((Dict.get? skip j = some s ∧ row = printArrive pass tref j s acc) ∨
       (Dict.get? skip j ≠ some s ∧ rowAt p ts tt pass dmax tref σ j s acc row)) := by
  unfold printTrain at h
  obtain ⟨path, hp, h⟩ := bind_ok h
  rw [Dict.at!_ok] at hp
  rw [hpath] at hp
  cases hp
  obtain ⟨a, ha, h⟩ := bind_ok h
  cases h
  rw [loop_append] at ha
  obtain ⟨a1, _, ha⟩ := bind_ok ha
  simp only [loop] at ha
  cases h2 : printStep p ts tt pass skip dmax tref σ j a1 q with
  | error e => rw [h2] at ha; cases ha
  | ok a2 =>
    rw [h2] at ha
    simp only at ha
    cases h3 : printStep p ts tt pass skip dmax tref σ j a2 s with
    | error e => rw [h3] at ha; cases ha
    | ok a3 =>
      rw [h3] at ha
      simp only at ha
      have hsr : s ∉ r := by
        have := (List.nodup_append.1 hnd).2.1
        simp only [List.nodup_cons] at this
        exact this.2.1
      rcases printStep_ok h2 with ⟨hs, _⟩ | ⟨_, delta, xq, _, hxq, he⟩
      · exact absurd hs hq
      · have hA : a2 = ⟨q, xq.2.1, xq.2.2, a2.sched⟩ := by rw [he]
        have hk := print_keep ha hsr
        rcases printStep_ok h3 with ⟨hs, h4⟩ | ⟨hs, delta', x, hi, hx, h4⟩
        · refine ⟨xq, a2, _, hxq, ?_, hA, .inl ⟨hs, rfl⟩⟩
          rw [hk, h4]
          simp only [Dict.get?_set, if_true]
        · refine ⟨xq, a2, _, hxq, ?_, hA, .inr ⟨hs, delta', x, hi, hx, rfl⟩⟩
          rw [hk, h4]
          simp only [Dict.get?_set, if_true]

theorem print_train {d : Dict Val (Dict Val Printed)}
    (h : printOptimisationResults p ts tt pass skip dmax tref σ = .ok d) {j : Val} (hj : j ∈ ts.J) :
    ∃ sch, Dict.get? d j = some sch ∧ printTrain p ts tt pass skip dmax tref σ j = .ok sch := by
  unfold printOptimisationResults at h
  refine loop_each h (fun j d => ∃ sch, Dict.get? d j = some sch ∧
    printTrain p ts tt pass skip dmax tref σ j = .ok sch) ?_ ?_ j hj
  · intro x _ t t' hst
    obtain ⟨sch, h1, hst⟩ := bind_ok hst
    cases hst
    exact ⟨sch, by simp only [Dict.get?_set, if_true], h1⟩
  · rintro x _ z _ t t' ⟨sch, h1, h2⟩ hst
    obtain ⟨sch', h3, hst⟩ := bind_ok hst
    cases hst
    by_cases hxz : x = z
    · subst hxz
      rw [h2] at h3
      cases h3
      exact ⟨sch, by simp only [Dict.get?_set, if_true], h2⟩
    · exact ⟨sch, by simp only [Dict.get?_set, if_neg hxz]; exact h1, h2⟩

/-- the row printed for a train at a station -/
def PrintedAt (d : Dict Val (Dict Val Printed)) (j s : Val) (row : Printed) : Prop :=
  ∃ sch, Dict.get? d j = some sch ∧ Dict.get? sch s = some row

/-- The full claim of C50: wherever the train runs from `p` to `s`, the arrival at `s` is printed;
it is the departure from `p` plus the passing time, and not after the printed departure. -/
def PrintsPlan (ts : TrainSets) (tt : Timetable) (b : Built) (σ : LpVar → ℚ) (tref : ℤ)
    (d : Dict Val (Dict Val Printed)) : Prop :=
  ∀ j ∈ ts.J, ∀ s p t w, PrevOf ts j s p → p ≠ .none → Departs ts tt b.dv σ j p t →
    Pass tt j p s w → ∃ row a, PrintedAt d j s row ∧ row.arrive = some a ∧ (a : ℚ) = tref + t + w ∧
      ∀ x, row.departure = some x → a ≤ x

/-- the departure in an integer solution is an integer number of minutes -/
theorem departs_int (hb : buildProblem ts tt dmax .integer = .ok b) (hf : Feasible b σ)
    (hi : IntTimes tt) {j s : Val} {t : ℚ} (h : Departs ts tt b.dv σ j s t) : IsInt t := by
  obtain ⟨e, v, he, hv, rfl⟩ := h
  have hdom := hf.adm.delays j s v hv
  rw [delayAt_ok, delayVariables_find (parts hb).hdv] at hv
  obtain ⟨_, rfl⟩ := hv
  obtain ⟨n, hn⟩ := hdom.2.2 rfl
  exact (edt_int hi he).add ⟨n, hn⟩

/-- The passing times given to the printing function, rounded, are those of the timetable: the
script prints with unrounded times (`solve_real_problem.py`, line 117) and optimises with rounded
ones (`helpers.py`, lines 71-72). -/
def RoundsTo (pass : Dict String ℚ) (tt : Timetable) : Prop :=
  ∀ k w, Dict.get? tt.tauPass k = some w → ∃ w', Dict.get? pass k = some w' ∧ (pyRound w' : ℚ) = w

/-- integer times can be given to the printing function as they are -/
theorem roundsTo_self {tt : Timetable} (hi : IntTimes tt) : RoundsTo tt.tauPass tt :=
  fun _ w h => ⟨w, h, pyRound_of (hi.pass _ (Dict.mem_of_get? h))⟩

/-- **C50, partial.** Full claim: `PrintsPlan`. Proved for a train `j` running from `q` to `s`, with
clean names, integer times in the timetable (as generated with `r = 1`) and dwell times that are not negative,
provided `j` leaves `s` under its own number, or `s` is skipped and the departure from `q` matters
to the problem. Besides, the printed departure is that of the plan. Missing: the other cases, where
the claim is false (`C50_false`). -/
theorem C50_arrivals_partial (hb : buildProblem ts tt dmax .integer = .ok b) (hf : Feasible b σ)
    (hc : CleanNames ts) (hi : IntTimes tt) (hskip : ts.skipStation = some skip)
    {d : Dict Val (Dict Val Printed)}
    (hd : printOptimisationResults b.prob ts tt pass skip dmax tref σ = .ok d)
    (hpass : RoundsTo pass tt) {j s q : Val} {path : List Val} {t w : ℚ} (hj : j ∈ ts.J)
    (hpath : Dict.get? ts.paths j = some path) (hnd : path.Nodup)
    (hprev : PrevOn path s q) (hq : q ≠ .none) (hdep : Departs ts tt b.dv σ j q t)
    (hw : Pass tt j q s w) (hstop : ∀ st, Stop tt j s st → 0 ≤ st)
    (hcase : HasDelay ts j s ∨ (Skips ts j s ∧ Matters ts tt j q)) :
    ∃ row a, PrintedAt d j s row ∧ row.arrive = some a ∧ (a : ℚ) = tref + t + w ∧
      (∀ x, row.departure = some x → a ≤ x) ∧
      (∀ tp, Departs ts tt b.dv σ j s tp → ∃ x, row.departure = some x ∧ (x : ℚ) = tref + tp) ∧
      (Skips ts j s → row.departure = .none) := by
  have P := parts hb
  obtain ⟨sch, hget, htr⟩ := print_train hd hj
  have hqs : Dict.get? skip j ≠ some q := by
    obtain ⟨e, v, _, hv, _⟩ := hdep
    rw [delayAt_ok, delayVariables_find P.hdv] at hv
    exact fun h => hv.1.2.2.1 ⟨skip, hskip, h⟩
  have hprevOf : PrevOf ts j s q := ⟨path, hpath, hprev⟩
  rcases hprev with ⟨l, r, rfl, hsl, hqne⟩ | ⟨r, rfl, rfl⟩
  swap
  · exact absurd rfl hq
  obtain ⟨xq, acc, row, hxq, hrow, hacc, hcases⟩ := printTrain_row hpath hnd hqs htr
  have hmq : Matters ts tt j q := by
    rcases hcase with h | ⟨_, h⟩
    · exact .inr (.inr ⟨s, hprevOf, hq, h⟩)
    · exact h
  obtain ⟨dq, eq, hrep, _⟩ := C19_departures_partial hb hc hmq hdep
  rw [hxq] at hrep
  cases hrep
  have hti := departs_int hb hf hi hdep
  obtain ⟨w0, hw0, hw1⟩ := hpass _ w hw
  have harr : printArrive pass tref j s acc =
      { arrive := some (tref + (pyRound w0 + pyInt t))
        conflictedArrive := some (tref + (pyRound w0 + pyInt eq)) } := by
    rw [hacc]
    unfold printArrive
    simp only
    rw [hw0]
  have hval : ((tref + (pyRound w0 + pyInt t) : ℤ) : ℚ) = tref + t + w := by
    push_cast
    rw [hw1, pyInt_of hti]
    ring
  have hskips : Skips ts j s ↔ Dict.get? skip j = some s := by
    constructor
    · rintro ⟨d', hd', h⟩
      rw [hskip] at hd'
      cases hd'
      exact h
    · exact fun h => ⟨skip, hskip, h⟩
  rcases hcases with ⟨hs, hr⟩ | ⟨hs, delta, x, _, hx, hr⟩
  · rw [hr, harr] at hrow
    refine ⟨_, _, ⟨sch, hget, hrow⟩, rfl, hval, (by simp), ?_, fun _ => rfl⟩
    rintro tp ⟨e, v, _, hv, _⟩
    rw [delayAt_ok, delayVariables_find P.hdv] at hv
    exact absurd (hskips.2 hs) hv.1.2.2.1
  · have hdel : HasDelay ts j s := by
      rcases hcase with h | ⟨h, _⟩
      · exact h
      · exact absurd (hskips.1 h) hs
    rw [hr, harr] at hrow
    have hdelay : delayAt b.dv j s = .ok (dVar j s dmax .integer) := by
      rw [delayAt_ok, delayVariables_find P.hdv]; exact ⟨hdel, rfl⟩
    have hin := (stay_occurs hb hprevOf hq hdelay).1
    have hx' := hx
    unfold delayAndActualTime at hx'
    rw [find_delay hb hc (mem_calls.2 ⟨hdel.1, hdel.2.1⟩) hdelay hin] at hx'
    simp only at hx'
    obtain ⟨e, he, hx'⟩ := bind_ok hx'
    cases hx'
    have hds : Departs ts tt b.dv σ j s (e + σ (dVar j s dmax .integer)) :=
      ⟨e, _, he, hdelay, rfl⟩
    have hsi := departs_int hb hf hi hds
    obtain ⟨t', w', st, h1, h2, h3, h4⟩ := C03_step hb hf hj hprevOf hq hds
    have ht' : t' = t := by
      obtain ⟨e1, v1, a1, a2, rfl⟩ := h1
      obtain ⟨e2, v2, a3, a4, rfl⟩ := hdep
      rw [a1] at a3; cases a3
      rw [a2] at a4; cases a4
      rfl
    have hw' : w' = w := by
      unfold Pass at h2 hw
      rw [h2] at hw; exact Option.some.inj hw
    subst ht' hw'
    have hdepval : ((tref + pyInt (σ (dVar j s dmax .integer) + e) : ℤ) : ℚ) =
        tref + (e + σ (dVar j s dmax .integer)) := by
      push_cast
      rw [add_comm (σ _) e, pyInt_of hsi]
    refine ⟨_, _, ⟨sch, hget, hrow⟩, rfl, hval, ?_, ?_, fun h => absurd (hskips.1 h) hs⟩
    · intro x h
      cases h
      have := hstop st h3
      have h5 : ((tref + (pyRound w0 + pyInt t') : ℤ) : ℚ) ≤
          ((tref + pyInt (σ (dVar j s dmax .integer) + e) : ℤ) : ℚ) := by
        rw [hval, hdepval]; linarith
      exact_mod_cast h5
    · intro tp htp
      refine ⟨_, rfl, ?_⟩
      obtain ⟨e2, v2, a3, a4, rfl⟩ := htp
      rw [he] at a3; cases a3
      rw [hdelay] at a4; cases a4
      exact hdepval

/-- the passing times generated without rounding, given to the printing function, agree with the
rounded ones used in the optimisation -/
theorem roundsTo_generated {td : Trains} (hw : WfTrains td) (hn : StationNamesOK td)
    {pass0 : Dict String ℚ} (h0 : getTausPass td 0 = .ok pass0) {tt : Timetable}
    (h1 : getTausPass td 1 = .ok tt.tauPass) : RoundsTo pass0 tt := by
  obtain ⟨d0, h0', e0⟩ := C35_pass td hw hn 0
  rw [h0] at h0'; cases h0'
  obtain ⟨d1, h1', e1⟩ := C35_pass td hw hn 1
  rw [h1] at h1'; cases h1'
  intro k w hk
  obtain ⟨t, tb, s, s', mid, ht, hc, hke, rfl⟩ := (e1 k w).1 hk
  refine ⟨_, (e0 k _).2 ⟨t, tb, s, s', mid, ht, hc, hke, rfl⟩, ?_⟩
  unfold roundIf
  norm_num

/-! ## Examples -/

theorem Small.intTimes : IntTimes Small.tt where
  pass := by unfold IntValues; simp only [isInt_iff_den]; decide +kernel
  headway := by unfold IntValues; simp only [isInt_iff_den]; decide +kernel
  stop := by unfold IntValues; simp only [isInt_iff_den]; decide +kernel
  prep := by unfold IntValues; simp only [isInt_iff_den]; decide +kernel
  res := by
    intro r hr
    cases hr
    exact isInt_one
  schedule := by
    intro d hd
    cases hd
    unfold IntValues; simp only [isInt_iff_den]; decide +kernel
  initial := by unfold IntValues; simp only [isInt_iff_den]; decide +kernel

/-- what is printed about a train at a station for a problem and values of its variables -/
def printedOf (ts : TrainSets) (tt : Timetable) (dmax : ℚ) (skip : Dict Val Val) (tref : ℤ)
    (σ : LpVar → ℚ) (j s : Val) : Option Printed :=
  match buildProblem ts tt dmax .integer with
  | .ok b =>
    match printOptimisationResults b.prob ts tt tt.tauPass skip dmax tref σ with
    | .ok d => (Dict.get? d j).bind fun x => Dict.get? x s
    | .error _ => .none
  | .error _ => .none

theorem printed_of_check {ts : TrainSets} {tt : Timetable} {dmax : ℚ} {skip : Dict Val Val}
    {tref : ℤ} {σ : LpVar → ℚ} {j s : Val} {row : Printed} {b : Built}
    (hb : buildProblem ts tt dmax .integer = .ok b)
    (h : printedOf ts tt dmax skip tref σ j s = some row) :
    ∃ d, printOptimisationResults b.prob ts tt tt.tauPass skip dmax tref σ = .ok d ∧
      PrintedAt d j s row := by
  unfold printedOf at h
  rw [hb] at h
  simp only at h
  split at h
  · rename_i d hd
    obtain ⟨sch, h1, h2⟩ := Option.bind_eq_some_iff.1 h
    exact ⟨d, hd, sch, h1, h2⟩
  · cases h

theorem PrintedAt.unique {d : Dict Val (Dict Val Printed)} {j s : Val} {r r' : Printed}
    (h : PrintedAt d j s r) (h' : PrintedAt d j s r') : r = r' := by
  obtain ⟨x, h1, h2⟩ := h
  obtain ⟨x', h3, h4⟩ := h'
  rw [h1] at h3
  cases h3
  rw [h2] at h4
  cases h4
  rfl

/-- the skipped stations of the small example -/
def Small.skipped : Dict Val Val := [(.int 1, .str "C"), (.int 2, .str "C"), (.int 4, .str "B")]

/-- Train 2 of the small example leaves `A` at 6 (four minutes late) and runs five minutes to `B`;
the reference time is 960 (16:00). -/
example : ∃ b d, buildProblem Small.ts Small.tt 10 .integer = .ok b ∧ Feasible b Small.σ ∧
    CleanNames Small.ts ∧ IntTimes Small.tt ∧ Small.ts.skipStation = some Small.skipped ∧
    printOptimisationResults b.prob Small.ts Small.tt Small.tt.tauPass Small.skipped 10 960 Small.σ =
      .ok d ∧
    Departs Small.ts Small.tt b.dv Small.σ (.int 2) (.str "A") 6 ∧
    Pass Small.tt (.int 2) (.str "A") (.str "B") 5 ∧ HasDelay Small.ts (.int 2) (.str "B") ∧
    (∀ st, Stop Small.tt (.int 2) (.str "B") st → 0 ≤ st) ∧
    PrintedAt d (.int 2) (.str "B") ⟨some 971, some 967, some 972, some 4, some 968, some (2/5)⟩ := by
  obtain ⟨b, hb, hf⟩ := Small.feasible
  obtain ⟨d, hd, hp⟩ := printed_of_check (skip := Small.skipped) (tref := 960) (σ := Small.σ)
    (j := .int 2) (s := .str "B")
    (row := ⟨some 971, some 967, some 972, some 4, some 968, some (2/5)⟩) hb (by decide +kernel)
  have h12 : Departs Small.ts Small.tt b.dv Small.σ (.int 2) (.str "B") 12 :=
    departs_of_check hb (by decide +kernel)
  refine ⟨b, d, hb, hf, Small.cleanNames, Small.intTimes, rfl, hd,
    departs_of_check hb (by decide +kernel), by unfold Pass; decide +kernel, ?_, ?_, hp⟩
  · obtain ⟨e, v, _, hv, _⟩ := h12
    rw [delayAt_ok, delayVariables_find (parts hb).hdv] at hv
    exact hv.1
  · intro st hst
    have : Dict.get? Small.tt.tauStop (key2 (.int 2) (.str "B")) = some 1 := by decide +kernel
    unfold Stop at hst
    rw [this] at hst
    cases hst
    norm_num

/-- a train from `A` to `B`, half a minute is lost when printing -/
def exampleHalf : TrainSets where
  skipStation := some []
  paths := [(.int 1, [.str "A", .str "B"])]
  J := [.int 1]
  Jd := []
  Josingle := []
  Jround := []
  Jtrack := []
  Jswitch := []
  addSwithes := .none

def exampleHalfTt : Timetable where
  tauPass := [("1_A_B", 5/2)]
  tauHeadway := []
  tauStop := [("1_B", 1)]
  tauPrep := []
  tauRes := some 1
  schedule := .none
  initialConditions := [("1_A", 7)]
  penaltyWeights := [("1_B", 1)]

/-- **C50 is false in general**: (1) with a passing time of 5/2 minutes the train leaving at 7 is
printed to arrive at 9 instead of 9.5; (2) a train that is continued by another one is printed to
arrive sixteen minutes after the reference time and to leave at the reference time. -/
theorem C50_false :
    (∃ ts tt dmax skip b σ d, buildProblem ts tt dmax .integer = .ok b ∧ Feasible b σ ∧
      CleanNames ts ∧ ts.skipStation = some skip ∧
      printOptimisationResults b.prob ts tt tt.tauPass skip dmax 0 σ = .ok d ∧
      ¬ PrintsPlan ts tt b σ 0 d) ∧
    (∃ ts tt dmax skip b σ d row, buildProblem ts tt dmax .integer = .ok b ∧ Feasible b σ ∧
      CleanNames ts ∧ IntTimes tt ∧ ts.skipStation = some skip ∧
      printOptimisationResults b.prob ts tt tt.tauPass skip dmax 960 σ = .ok d ∧
      PrintedAt d (.int 3) (.str "A") row ∧ row.arrive = some 976 ∧ row.departure = some 960 ∧
      ¬ PrintsPlan ts tt b σ 960 d) := by
  constructor
  · obtain ⟨b, hb, hf⟩ : ∃ b, buildProblem exampleHalf exampleHalfTt 10 .integer = .ok b ∧
        Feasible b (fun _ => 0) :=
      feasible_of_check (by decide +kernel)
        (fun v j s hv => ⟨le_refl _, by norm_num, 0, by norm_num⟩)
        (fun v a b c d hv => .inl rfl)
    obtain ⟨d, hd, hp⟩ := printed_of_check (skip := []) (tref := 0) (σ := fun _ => 0)
      (j := .int 1) (s := .str "B")
      (row := ⟨some 9, some 9, some 10, some 0, some 10, some 0⟩) hb (by decide +kernel)
    refine ⟨exampleHalf, exampleHalfTt, 10, [], b, fun _ => 0, d, hb, hf,
      ⟨by decide +kernel, by decide +kernel, by decide +kernel⟩, rfl, hd, fun h => ?_⟩
    obtain ⟨row, a, h1, h2, h3, _⟩ := h (.int 1) (by decide +kernel) (.str "B") (.str "A") 7 (5/2)
      ⟨_, rfl, .inl ⟨[], [], rfl, by simp, by decide⟩⟩ (by decide)
      (departs_of_check hb (by decide +kernel)) (by unfold Pass; decide +kernel)
    rw [← hp.unique h1] at h2
    cases h2
    norm_num at h3
  · obtain ⟨b, hb, hf⟩ := Small.feasible
    obtain ⟨d, hd, hp⟩ := printed_of_check (skip := Small.skipped) (tref := 960) (σ := Small.σ)
      (j := .int 3) (s := .str "A")
      (row := ⟨some 976, some 968, some 960, some 0, some 960, some 0⟩) hb (by decide +kernel)
    refine ⟨Small.ts, Small.tt, 10, Small.skipped, b, Small.σ, d, _, hb, hf, Small.cleanNames,
      Small.intTimes, rfl, hd, hp, rfl, rfl, fun h => ?_⟩
    obtain ⟨row, a, h1, h2, h3, h4⟩ := h (.int 3) (by decide +kernel) (.str "A") (.str "B") 11 5
      ⟨_, rfl, .inl ⟨[], [], rfl, by simp, by decide⟩⟩ (by decide)
      (departs_of_check hb (by decide +kernel)) (by unfold Pass; decide +kernel)
    rw [← hp.unique h1] at h2 h4
    cases h2
    have := h4 960 rfl
    norm_num at this

end Verif
