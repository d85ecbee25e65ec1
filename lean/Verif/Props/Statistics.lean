import Verif.Props.Diagram

/-!
# C77: the statistics of delays

What `visualise_statistics.py` collects and prints for a printed solution.
-/

namespace Verif

/-! ## What is collected -/

/-- the secondary delays printed for a station, train after train -/
def delaysAt (d : Dict Val (Dict Val Printed)) (s : Val) : List ℤ :=
  d.flatMap fun train => train.2.filterMap fun e => if e.1 = s then e.2.secondaryDelay else none

/-- what is stored for a station after `l` was appended -/
def appended (old : Option (List ℤ)) (l : List ℤ) : Option (List ℤ) :=
  if l = [] then old else some (old.getD [] ++ l)

theorem appended_append (old : Option (List ℤ)) (l l' : List ℤ) :
    appended (appended old l) l' = appended old (l ++ l') := by
  unfold appended
  by_cases h : l = []
  · subst h; simp
  · by_cases h' : l' = []
    · subst h'; simp [h]
    · simp [h, h']

theorem collect_train (train : Dict Val Printed) (delays : Dict Val (List ℤ)) (s : Val) :
    Dict.get? (train.foldl addDelayAt delays) s =
    appended (Dict.get? delays s)
      (train.filterMap fun e => if e.1 = s then e.2.secondaryDelay else none) := by
  induction train generalizing delays with
  | nil => simp [appended]
  | cons e train ih =>
    rw [List.foldl_cons, ih, show e :: train = [e] ++ train from rfl, List.filterMap_append,
      ← appended_append]
    congr 1
    unfold addDelayAt
    cases h : e.2.secondaryDelay with
    | none => simp [h, appended]
    | some x =>
      by_cases hs : e.1 = s
      · subst hs
        cases hd : Dict.get? delays e.1 <;> simp [h, appended, Dict.get?_set]
      · cases hd : Dict.get? delays e.1 <;> simp [appended, Dict.get?_set, hs, Ne.symm hs]

/-- **C77**, collecting: for every station the secondary delays of the trains are appended, in the
order of the trains; a station is added when it has one. -/
theorem C77_collected (delays : Dict Val (List ℤ)) (d : Dict Val (Dict Val Printed)) (s : Val) :
    Dict.get? (addDelaysOneRealisation delays d) s =
      if delaysAt d s = [] then Dict.get? delays s
      else some ((Dict.get? delays s).getD [] ++ delaysAt d s) := by
  have : Dict.get? (addDelaysOneRealisation delays d) s =
      appended (Dict.get? delays s) (delaysAt d s) := by
    unfold addDelaysOneRealisation delaysAt
    induction d generalizing delays with
    | nil => simp [appended]
    | cons e d ih => rw [List.foldl_cons, ih, collect_train, List.flatMap_cons, appended_append]
  exact this

/-! ## The numbers -/

theorem sorted_get {s : List ℤ} (hs : s.Pairwise (· ≤ ·)) {i j : Nat} (hij : i ≤ j) {a b : ℤ}
    (ha : s[i]? = some a) (hb : s[j]? = some b) : a ≤ b := by
  obtain ⟨hi, rfl⟩ := List.getElem?_eq_some_iff.1 ha
  obtain ⟨hj, rfl⟩ := List.getElem?_eq_some_iff.1 hb
  rcases Nat.lt_or_eq_of_le hij with h | rfl
  · exact List.pairwise_iff_getElem.1 hs i j hi hj h
  · exact le_refl _

/-- the quantile lies between two neighbours of the sorted list -/
theorem quantile_spec {xs : List ℤ} (hne : xs ≠ []) {q : ℚ} (h0 : 0 ≤ q) (h1 : q < 1) :
    ∃ (v : ℚ) (a b : ℤ), npQuantile xs q = some v ∧
      (xs.insertionSort (· ≤ ·))[(q * (xs.length - 1)).floor.toNat]? = some a ∧
      ((xs.insertionSort (· ≤ ·))[(q * (xs.length - 1)).floor.toNat + 1]? = some b ∨
        (xs.insertionSort (· ≤ ·))[(q * (xs.length - 1)).floor.toNat + 1]? = none ∧ b = a) ∧
      a ≤ b ∧ v = a + (b - a) * (q * (xs.length - 1) - (q * (xs.length - 1)).floor) := by
  have hlen : 1 ≤ xs.length := List.length_pos_iff.2 hne
  have hl' : (1 : ℚ) ≤ xs.length := by exact_mod_cast hlen
  have hv0 : 0 ≤ q * ((xs.length : ℚ) - 1) := mul_nonneg h0 (by linarith)
  have hv1 : q * ((xs.length : ℚ) - 1) ≤ xs.length - 1 := by nlinarith
  have hf0 : 0 ≤ (q * ((xs.length : ℚ) - 1)).floor := Rat.le_floor_iff.2 (by simpa using hv0)
  have hi : (q * ((xs.length : ℚ) - 1)).floor.toNat < (xs.insertionSort (· ≤ ·)).length := by
    rw [List.length_insertionSort]
    have : ((q * ((xs.length : ℚ) - 1)).floor : ℚ) ≤ q * ((xs.length : ℚ) - 1) := Rat.floor_le _
    have : ((q * ((xs.length : ℚ) - 1)).floor : ℚ) ≤ ((xs.length : ℤ) - 1 : ℤ) := by
      push_cast; linarith
    have : (q * ((xs.length : ℚ) - 1)).floor ≤ (xs.length : ℤ) - 1 := by exact_mod_cast this
    omega
  have hs := List.pairwise_insertionSort (· ≤ ·) xs
  unfold npQuantile
  simp only
  cases ha : (xs.insertionSort (· ≤ ·))[(q * ((xs.length : ℚ) - 1)).floor.toNat]? with
  | none => rw [List.getElem?_eq_none_iff] at ha; omega
  | some a =>
    cases hb : (xs.insertionSort (· ≤ ·))[(q * ((xs.length : ℚ) - 1)).floor.toNat + 1]? with
    | none => exact ⟨a, a, a, rfl, rfl, .inr ⟨rfl, rfl⟩, le_refl _, by ring⟩
    | some b => exact ⟨_, a, b, rfl, rfl, .inl rfl, sorted_get hs (by omega) ha hb, rfl⟩

/-- **C77**, the numbers printed for a list of delays: the quantiles are in order and, like the mean,
between the least and the greatest delay. -/
theorem C77_numbers {xs : List ℤ} (hne : xs ≠ []) :
    ∃ mn mx a b, npMin xs = some mn ∧ npMax xs = some mx ∧ npQuantile xs (1 / 4) = some a ∧
      npQuantile xs (3 / 4) = some b ∧ mn ∈ xs ∧ mx ∈ xs ∧ (∀ x ∈ xs, mn ≤ x ∧ x ≤ mx) ∧
      mn ≤ a ∧ a ≤ b ∧ b ≤ mx ∧ mn ≤ npMean xs ∧ npMean xs ≤ mx := by
  obtain ⟨mn, hmn⟩ : ∃ m, xs.min? = some m := by
    cases h : xs.min? with
    | none => exact absurd (List.min?_eq_none_iff.1 h) hne
    | some m => exact ⟨m, rfl⟩
  obtain ⟨mx, hmx⟩ : ∃ m, xs.max? = some m := by
    cases h : xs.max? with
    | none => exact absurd (List.max?_eq_none_iff.1 h) hne
    | some m => exact ⟨m, rfl⟩
  obtain ⟨hm1, hm2⟩ := List.min?_eq_some_iff.1 hmn
  obtain ⟨hM1, hM2⟩ := List.max?_eq_some_iff.1 hmx
  have hs := List.pairwise_insertionSort (· ≤ ·) xs
  have hmem : ∀ {i : Nat} {a : ℤ}, (xs.insertionSort (· ≤ ·))[i]? = some a → mn ≤ a ∧ a ≤ mx := by
    intro i a h
    have := (List.mem_insertionSort _).1 (List.mem_of_getElem? h)
    exact ⟨hm2 a this, hM2 a this⟩
  obtain ⟨v, a, b, e1, e2, e3, e4, e5⟩ := quantile_spec hne (q := 1 / 4) (by norm_num) (by norm_num)
  obtain ⟨v', a', b', e1', e2', e3', e4', e5'⟩ := quantile_spec hne (q := 3 / 4) (by norm_num)
    (by norm_num)
  have hlen : 1 ≤ xs.length := List.length_pos_iff.2 hne
  have hl' : (1 : ℚ) ≤ xs.length := by exact_mod_cast hlen
  generalize hu : (1 / 4 : ℚ) * ((xs.length : ℚ) - 1) = u at *
  generalize hu' : (3 / 4 : ℚ) * ((xs.length : ℚ) - 1) = u' at *
  have huu : u ≤ u' := by linarith
  have hfl : u.floor ≤ u'.floor := Rat.le_floor_iff.2 ((Rat.floor_le u).trans huu)
  have f1 := Rat.floor_le u
  have f2 : u - 1 < u.floor := Rat.lt_floor
  have f1' := Rat.floor_le u'
  have f2' : u' - 1 < u'.floor := Rat.lt_floor
  have hab : (a : ℚ) ≤ b := by exact_mod_cast e4
  have hab' : (a' : ℚ) ≤ b' := by exact_mod_cast e4'
  have hva : (a : ℚ) ≤ v := by rw [e5]; nlinarith
  have hvb : v ≤ b := by rw [e5]; nlinarith
  have hva' : (a' : ℚ) ≤ v' := by rw [e5']; nlinarith
  have hvb' : v' ≤ b' := by rw [e5']; nlinarith
  have hmna : (mn : ℚ) ≤ a := by exact_mod_cast (hmem e2).1
  have hbmx : (b' : ℚ) ≤ mx := by
    rcases e3' with h | ⟨-, rfl⟩
    · exact_mod_cast (hmem h).2
    · exact_mod_cast (hmem e2').2
  have hvv : v ≤ v' := by
    rcases Nat.lt_or_ge u.floor.toNat u'.floor.toNat with hlt | hge
    · have : b ≤ a' := by
        rcases e3 with h | ⟨-, rfl⟩
        · exact sorted_get hs hlt h e2'
        · exact sorted_get hs hlt.le e2 e2'
      have : (b : ℚ) ≤ a' := by exact_mod_cast this
      linarith
    · have hu0 : 0 ≤ u := by linarith
      have hf0 : 0 ≤ u.floor := Rat.le_floor_iff.2 (by simpa using hu0)
      have heq : u.floor = u'.floor := by omega
      rw [← heq] at e2' e3' e5'
      rw [e2] at e2'
      cases e2'
      have : b = b' := by
        rcases e3 with h | ⟨h, rfl⟩ <;> rcases e3' with h' | ⟨h', rfl⟩
        · rw [h] at h'; cases h'; rfl
        · rw [h] at h'; cases h'
        · rw [h] at h'; cases h'
        · rfl
      subst this
      rw [e5, e5']
      nlinarith
  have hsum : ∀ l : List ℤ, (∀ x ∈ l, mn ≤ x ∧ x ≤ mx) →
      (mn : ℚ) * l.length ≤ (l.sum : ℤ) ∧ ((l.sum : ℤ) : ℚ) ≤ mx * l.length := by
    intro l
    induction l with
    | nil => simp
    | cons x l ih =>
      intro hl
      obtain ⟨h1, h2⟩ := ih fun y hy => hl y (by simp [hy])
      obtain ⟨h3, h4⟩ := hl x (by simp)
      have h3 : (mn : ℚ) ≤ x := by exact_mod_cast h3
      have h4 : (x : ℚ) ≤ mx := by exact_mod_cast h4
      rw [List.sum_cons, List.length_cons]
      push_cast
      constructor <;> linarith
  obtain ⟨s1, s2⟩ := hsum xs fun x hx => ⟨hm2 x hx, hM2 x hx⟩
  have hpos : (0 : ℚ) < xs.length := by linarith
  refine ⟨mn, mx, v, v', hmn, hmx, e1, e1', hm1, hM1, fun x hx => ⟨hm2 x hx, hM2 x hx⟩, by linarith, hvv,
    by linarith, ?_, ?_⟩
  · unfold npMean
    rw [le_div_iff₀ hpos]
    exact s1
  · unfold npMean
    rw [div_le_iff₀ hpos]
    exact s2

/-- **C77**, printing: the statistics are printed if every station has delays, otherwise `KeyError`. -/
theorem C77_printed (delays : Dict Val (List ℤ)) (stations : List Val) :
    ((∀ e ∈ stations, ∃ xs, Dict.get? delays e = some xs) → ∃ l,
      getPrintStatistics delays stations = .ok l ∧ List.Forall₂ (fun e (x : DelayStats) => ∃ xs,
        Dict.get? delays e = some xs ∧ x = ⟨npMax xs, npQuantile xs (3 / 4), npMean xs,
          npQuantile xs (1 / 4), npMin xs⟩) stations l) ∧
    ((∃ e ∈ stations, Dict.get? delays e = none) →
      getPrintStatistics delays stations = .error .keyError) := by
  unfold getPrintStatistics
  induction stations with
  | nil => exact ⟨fun _ => ⟨[], rfl, .nil⟩, by simp⟩
  | cons e stations ih =>
    rw [List.mapM_cons]
    cases he : Dict.get? delays e with
    | none =>
      refine ⟨fun h => ?_, fun _ => ?_⟩
      · obtain ⟨xs, hxs⟩ := h e (by simp)
        rw [he] at hxs
        cases hxs
      · simp only [Dict.at!, he]
        rfl
    | some xs =>
      refine ⟨fun h => ?_, fun h => ?_⟩
      · obtain ⟨l, h1, h2⟩ := ih.1 fun e' he' => h e' (by simp [he'])
        refine ⟨⟨npMax xs, npQuantile xs (3 / 4), npMean xs, npQuantile xs (1 / 4), npMin xs⟩ :: l, ?_,
          .cons ⟨xs, he, rfl⟩ h2⟩
        rw [h1]
        simp only [Dict.at!, he]
        rfl
      · have := ih.2 (by
          obtain ⟨e', he', hn⟩ := h
          rcases List.mem_cons.1 he' with rfl | he'
          · rw [he] at hn; cases hn
          · exact ⟨e', he', hn⟩)
        rw [this]
        simp only [Dict.at!, he]
        rfl

/-! ## Plans -/

theorem delays_of_train {sch : Dict Val Printed} (hnd : (Dict.keys sch).Nodup) (s : Val) :
    (sch.filterMap fun e => if e.1 = s then e.2.secondaryDelay else none) =
      ((Dict.get? sch s).bind (·.secondaryDelay)).toList := by
  induction sch with
  | nil => rfl
  | cons e sch ih =>
    have hnd' : (Dict.keys sch).Nodup := (List.nodup_cons.1 hnd).2
    rw [List.filterMap_cons, ih hnd']
    obtain ⟨k, row⟩ := e
    by_cases hk : k = s
    · subst hk
      have hn : Dict.get? sch k = none := by
        cases h : Dict.get? sch k with
        | none => rfl
        | some r =>
          exact absurd ((Dict.get?_isSome sch k).1 (by rw [h]; rfl)) (List.nodup_cons.1 hnd).1
      have hg : Dict.get? ((k, row) :: sch) k = some row := Dict.get?_of_mem hnd (by simp)
      rw [hg, hn]
      simp only [if_true, Option.bind_some, Option.bind_none]
      cases row.secondaryDelay <;> rfl
    · have hg : Dict.get? ((k, row) :: sch) s = Dict.get? sch s := by
        simp [Dict.get?, hk]
      rw [hg]
      simp only [if_neg hk]

section Plan
variable {td : Trains} {st : Stations} {table : List PathRow} {t1 : String}
  {delays : List (Int × ℚ)} {ts : TrainSets} {tt : Timetable} {dmax : ℚ} {b : Built}
  {σ : LpVar → ℚ} {tref : ℤ}

/-- The delays collected for station `x` are those of the trains that leave it: how much later than
the earliest departure the train leaves in the plan; never negative, and not more than `d_max`. -/
def StationDelays (td : Trains) (t1 : String) (delays : List (Int × ℚ)) (dmax : ℚ)
    (dep : Int → String → ℚ) (d : Dict Val (Dict Val Printed)) (x : String) : Prop :=
  ∃ who : List Int, who.Sublist (Dict.keys td) ∧ (∀ t, t ∈ who ↔ Leaves td t x) ∧
    List.Forall₂ (fun t (s : ℤ) => ∃ rows e, TableOf td t rows ∧
      Earliest rows t1 1 (addedDelay delays t) x e ∧ (s : ℚ) = dep t x - e ∧ 0 ≤ (s : ℚ) ∧ (s : ℚ) ≤ dmax)
      who (delaysAt d (.str x))

/-- **C77**, plans: what is collected from a printed solution all of whose trains are printed with the
departures of the solution. -/
theorem C77_delays (G : GoodData td st) (h : makeInput td st table t1 1 delays = .ok (ts, tt))
    (hb : buildProblem ts tt dmax .integer = .ok b) (hf : Feasible b σ) {dep : Int → String → ℚ}
    (hdep : ∀ t x, Leaves td t x → Departs ts tt b.dv σ (.int t) (.str x) (dep t x))
    {d : Dict Val (Dict Val Printed)} (hkeys : Dict.keys d = (Dict.keys td).map Val.int)
    (hall : ∀ t rows, TableOf td t rows → ∃ sch, Dict.get? d (.int t) = some sch ∧
      Dict.keys sch = (rows.filterMap (·.station)).map Val.str ∧
      PrintedPlan td st t1 delays dmax dep tref t rows sch) (x : String) :
    StationDelays td t1 delays dmax dep d x := by
  have hnd : (Dict.keys d).Nodup := by
    rw [hkeys]
    exact G.trains.keys.map fun a b e => by cases e; rfl
  -- one train
  have one : ∀ t sch, (Val.int t, sch) ∈ d →
      (Leaves td t x ∧ ∃ s : ℤ, (sch.filterMap fun e => if e.1 = .str x then e.2.secondaryDelay else none) =
        [s] ∧ ∃ rows e, TableOf td t rows ∧ Earliest rows t1 1 (addedDelay delays t) x e ∧
          (s : ℚ) = dep t x - e ∧ 0 ≤ (s : ℚ) ∧ (s : ℚ) ≤ dmax) ∨
      (¬ Leaves td t x ∧
        (sch.filterMap fun e => if e.1 = .str x then e.2.secondaryDelay else none) = []) := by
    intro t sch hmem
    have hk : Val.int t ∈ Dict.keys d := List.mem_map.2 ⟨_, hmem, rfl⟩
    rw [hkeys] at hk
    obtain ⟨t', ht', e⟩ := List.mem_map.1 hk
    rw [Val.int.inj e] at ht'
    obtain ⟨⟨_, info, rows⟩, hm, e⟩ := List.mem_map.1 ht'
    simp only at e
    rw [e] at hm
    have ht : TableOf td t rows := TableOf.of_mem G.trains.keys hm
    obtain ⟨sch', h1, h2, h3⟩ := hall t rows ht
    rw [Dict.get?_of_mem hnd hmem] at h1
    cases h1
    have hsn : (Dict.keys sch).Nodup := by
      rw [h2]
      exact List.Nodup.map (fun a b e => by cases e; rfl) (G.trains.table ht).1
    rw [delays_of_train hsn]
    by_cases hl : Leaves td t x
    · refine .inl ⟨hl, ?_⟩
      obtain ⟨row, hr⟩ : ∃ row, Dict.get? sch (.str x) = some row := by
        refine Option.isSome_iff_exists.1 ((Dict.get?_isSome sch _).2 ?_)
        rw [h2]
        obtain ⟨q, rows', ht', hq, hs, -⟩ := hl
        cases ht'.unique ht
        exact List.mem_map.2 ⟨x, mem_stations.2 ⟨q, hq, hs⟩, rfl⟩
      obtain ⟨_, _, s, e, -, -, hs, he, -, -, hse⟩ := h3.departs x row hl hr
      obtain ⟨e', he', l1, l2⟩ := C70_departs G h hb hf ht (hdep _ x hl)
      rw [(C70_found G h ht hl).unique he' he] at l1 l2
      refine ⟨s, by rw [hr]; simp [hs], rows, e, ht, he, hse, ?_, ?_⟩ <;> rw [hse] <;> linarith
    · refine .inr ⟨hl, ?_⟩
      cases hr : Dict.get? sch (.str x) with
      | none => rfl
      | some row =>
        have hx : Serves rows x := by
          have := (Dict.get?_isSome sch (.str x)).1 (by rw [hr]; rfl)
          rw [h2] at this
          obtain ⟨y, hy, e⟩ := List.mem_map.1 this
          cases e
          exact mem_stations.1 hy
        have he : EndsIn td st t x := by
          by_contra hne
          exact hl ((leaves_iff G).2 ⟨⟨rows, ht, hx⟩, hne⟩)
        simp [(h3.ends x row he hr).2.1]
  -- all trains
  have key : ∀ (ks : List Int) (l : Dict Val (Dict Val Printed)), Dict.keys l = ks.map Val.int →
      (∀ e ∈ l, e ∈ d) → ∃ who : List Int, who.Sublist ks ∧ (∀ t ∈ ks, t ∈ who ↔ Leaves td t x) ∧
        List.Forall₂ (fun t (s : ℤ) => ∃ rows e, TableOf td t rows ∧
          Earliest rows t1 1 (addedDelay delays t) x e ∧ (s : ℚ) = dep t x - e ∧ 0 ≤ (s : ℚ) ∧
          (s : ℚ) ≤ dmax) who (delaysAt l (.str x)) := by
    intro ks
    induction ks with
    | nil =>
      intro l hl _
      cases l with
      | nil => exact ⟨[], by simp, by simp, .nil⟩
      | cons e l => cases hl
    | cons t ks ih =>
      intro l hl hd
      cases l with
      | nil => cases hl
      | cons e l =>
        obtain ⟨k, sch⟩ := e
        rw [Dict.keys, List.map_cons, List.map_cons, List.cons.injEq] at hl
        obtain ⟨hk, hl⟩ := hl
        simp only at hk
        subst hk
        obtain ⟨who, w1, w2, w3⟩ := ih l hl fun e he => hd e (by simp [he])
        have hdl : delaysAt ((Val.int t, sch) :: l) (.str x) =
            (sch.filterMap fun e => if e.1 = .str x then e.2.secondaryDelay else none) ++
              delaysAt l (.str x) := by
          simp [delaysAt]
        rw [hdl]
        rcases one t sch (hd _ (by simp)) with ⟨h1, s, h2, h3⟩ | ⟨h1, h2⟩
        · rw [h2]
          refine ⟨t :: who, w1.cons_cons t, ?_, .cons h3 w3⟩
          intro t' ht'
          by_cases e : t' = t
          · subst e; simp [h1]
          · rw [List.mem_cons, or_iff_right e]
            exact w2 t' ((List.mem_cons.1 ht').resolve_left e)
        · rw [h2]
          refine ⟨who, w1.cons t, ?_, w3⟩
          intro t' ht'
          by_cases e : t' = t
          · subst e
            by_cases hm : t' ∈ ks
            · exact w2 t' hm
            · exact iff_of_false (fun hw => hm (w1.subset hw)) h1
          · exact w2 t' ((List.mem_cons.1 ht').resolve_left e)
  obtain ⟨who, w1, w2, w3⟩ := key (Dict.keys td) d hkeys fun e he => he
  refine ⟨who, w1, fun t => ?_, w3⟩
  by_cases ht : t ∈ Dict.keys td
  · exact w2 t ht
  · refine iff_of_false (fun hw => ht (w1.subset hw)) ?_
    rintro ⟨row, rows, hT, -⟩
    obtain ⟨info, hm⟩ := hT.mem
    exact ht (List.mem_map.2 ⟨_, hm, rfl⟩)

end Plan

end Verif
