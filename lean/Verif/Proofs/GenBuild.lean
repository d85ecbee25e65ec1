import Verif.Proofs.GenSets

/-!
# Generated input: no lookup fails while the problem is built
-/

namespace Verif

variable {td : Trains} {st : Stations} {table : List PathRow} {t1 : String} {r : Int}
  {ts : TrainSets} {tt : Timetable}

theorem Runs.leaves (G : GoodData td st) {t : Int} {x x2 : String} {b : List String}
    (h : Runs td t x x2 b) : Leaves td t x := by
  obtain ⟨rows, mid, ht, hc, -⟩ := h
  exact leaves_of_next G ht hc

theorem Runs.of {t : Int} {rows mid : List Row} {x x2 : String} (ht : TableOf td t rows)
    (hc : Consecutive rows x x2 mid) : Runs td t x x2 (mid.map (·.path)) := ⟨rows, mid, ht, hc, rfl⟩

theorem Gen.headway' (g : Gen td st table t1 r ts tt) {t t' : Int} {x x2 : String}
    {b b' : List String} (hne : t ≠ t') (h : Runs td t x x2 b) (h' : Runs td t' x x2 b') :
    ∃ w, tauHeadway tt (.int t) (.int t') (.str x) (.str x2) = .ok w := by
  obtain ⟨rows, m, ht, hc, -⟩ := h
  obtain ⟨rows', m', ht', hc', -⟩ := h'
  obtain ⟨w, -, hw⟩ := g.headway t t' rows rows' x x2 m m' hne ht ht' hc hc'
  exact ⟨w, tauHeadway_ok.2 hw⟩

theorem Gen.pass' (g : Gen td st table t1 r ts tt) {t : Int} {x x2 : String}
    {b : List String} (h : Runs td t x x2 b) : ∃ w, tauPass tt (.int t) (.str x) (.str x2) = .ok w := by
  obtain ⟨rows, m, ht, hc, -⟩ := h
  exact ⟨_, tauPass_ok.2 (g.pass t rows x x2 m ht hc)⟩

/-! ## Order variables -/

theorem addOrder_ok (y : OrderVars) (p q : Val × Val × Val × Val) (v : LpVar) :
    ∃ y', addOrder y p q v = .ok y' := by
  obtain ⟨y', h, -⟩ := addOrder_spec y p q v
  exact ⟨y', h⟩

theorem Gen.prevStr (g : Gen td st table t1 r ts tt) {t : Int} {x : String} {rows : List Row}
    (ht : TableOf td t rows) (hx : Serves rows x) :
    ∃ p, previousStation ((trainImportantStations rows).map strKey) (.str x) = .ok p ∧
      ((∃ x0 mid, p = .str x0 ∧ Consecutive rows x0 x mid) ∨
       (p = .none ∧ ∃ row, FirstStation rows x row)) := by
  obtain ⟨p, hp⟩ := g.prev_exists ht hx
  obtain ⟨path, h1, h2⟩ := prevOf_iff.1 hp
  rw [Dict.at!_ok, g.path_some ht] at h1
  cases h1
  obtain ⟨t', x', rows', ht', hx', hT, hc⟩ := g.prev.1 hp
  cases ht'; cases hx'
  cases hT.unique ht
  exact ⟨p, h2, hc⟩

theorem prevStr_of_next {t : Int} {rows mid : List Row} {x0 x : String}
    (g : Gen td st table t1 r ts tt) (ht : TableOf td t rows) (hc : Consecutive rows x0 x mid) :
    previousStation ((trainImportantStations rows).map strKey) (.str x) = .ok (.str x0) := by
  obtain ⟨path, h1, h2⟩ := prevOf_iff.1 (g.prev.2 ⟨t, x, rows, rfl, rfl, ht, .inl ⟨x0, mid, rfl, hc⟩⟩)
  rw [Dict.at!_ok, g.path_some ht] at h1
  cases h1
  exact h2

theorem Gen.canMO (g : Gen td st table t1 r ts tt) {t t' : Int} {x : String} {rows rows' : List Row}
    (ht : TableOf td t rows) (hx : Serves rows x) (ht' : TableOf td t' rows')
    (hx' : Serves rows' x) : ∃ b, canMOonLine (.int t) (.int t') (.str x) ts = .ok b := by
  obtain ⟨p, hp, hc⟩ := g.prevStr ht hx
  obtain ⟨p', hp', hc'⟩ := g.prevStr ht' hx'
  simp only [canMOonLine, Dict.at!_ok.2 (g.path_some ht), Dict.at!_ok.2 (g.path_some ht'), hp, hp',
    bind, Except.bind]
  split
  · exact ⟨_, rfl⟩
  · split
    · exact ⟨_, rfl⟩
    · split
      · exact ⟨_, rfl⟩
      · rename_i hnone _
        rcases hc with ⟨x0, mid, rfl, hc⟩ | ⟨rfl, -⟩
        · obtain ⟨d, gs, hd, hgs, -⟩ := g.jd_get (Runs.of ht hc)
          simp only [Dict.at!_ok.2 hd, Dict.at!_ok.2 hgs]
          split <;> exact ⟨_, rfl⟩
        · exact absurd (.inl rfl) hnone

/-- the station whose departure decides when the switches are passed -/
theorem Gen.depStation (g : Gen td st table t1 r ts tt) {t : Int} {x a : String} {rows : List Row}
    (ht : TableOf td t rows) (ha : AtPlace rows x a) {pair : Dict Val String}
    (hp : Dict.get? pair (.int t) = some a) :
    ∃ z, departureStation4switches (.str x) (.int t) pair ts = .ok (.str z) ∧
      ((a = "out" ∧ z = x ∧ ∃ x1 mid, Consecutive rows x x1 mid) ∨
       (a = "in" ∧ ∃ mid, Consecutive rows z x mid)) := by
  unfold departureStation4switches
  simp only [Dict.at!_ok.2 hp, bind, Except.bind]
  rcases ha with ⟨rfl, x0, mid, hc⟩ | ⟨rfl, x1, mid, hc⟩
  · refine ⟨x0, ?_, .inr ⟨rfl, mid, hc⟩⟩
    simp only [show ("in" : String) ≠ "out" by decide, if_false, if_true,
      Dict.at!_ok.2 (g.path_some ht), prevStr_of_next g ht hc]
  · exact ⟨x, by simp, .inl ⟨rfl, rfl, x1, mid, hc⟩⟩

theorem AtPlace.serves {rows : List Row} {x a : String} (h : AtPlace rows x a) : Serves rows x := by
  rcases h with ⟨-, x0, mid, hc⟩ | ⟨-, x1, mid, hc⟩
  · exact (consecutive_serves hc).2
  · exact (consecutive_serves hc).1

theorem get?_pair_fst {t t' : Int} {a a' : String} :
    Dict.get? [(Val.int t, a), (Val.int t', a')] (.int t) = some a := by simp [Dict.get?]

theorem get?_pair_snd {t t' : Int} (h : t ≠ t') {a a' : String} :
    Dict.get? [(Val.int t, a), (Val.int t', a')] (.int t') = some a' := by
  simp [Dict.get?, h]

theorem Gen.orderVariables (g : Gen td st table t1 r ts tt) : ∃ y, Verif.orderVariables ts = .ok y := by
  unfold Verif.orderVariables
  obtain ⟨y1, h1⟩ : ∃ y, orderVar4singleLine ts [] = .ok y := by
    unfold orderVar4singleLine
    simp only [updateY4_eq]
    exact loop_succeeds (fun y e _ => loop_succeeds (fun y p _ => addOrder_ok _ _ _ _) y) []
  obtain ⟨y2, h2⟩ : ∃ y, orderVar4minimalSpan ts y1 = .ok y := by
    unfold orderVar4minimalSpan
    simp only [updateY3_eq]
    exact loop_succeeds (fun y e _ => loop_succeeds (fun y e2 _ => loop_succeeds (fun y js _ =>
      loop_succeeds (fun y p _ => addOrder_ok _ _ _ _) y) y) y) y1
  obtain ⟨y3, h3⟩ : ∃ y, orderVar4track ts y2 = .ok y := by
    unfold orderVar4track
    simp only [updateY3_eq]
    exact loop_succeeds (fun y e _ => loop_succeeds (fun y js _ =>
      loop_succeeds (fun y p _ => addOrder_ok _ _ _ _) y) y) y2
  obtain ⟨y4, h4⟩ : ∃ y, orderVar4switch ts y3 = .ok y := by
    refine loop_succeeds (fun y e he => loop_succeeds (fun y pair hp => ?_) y) y3
    obtain ⟨x, t, t', a, a', rows, rows', hx, rfl, hs, ht, ht', ha, ha'⟩ := g.jswitch_mem he hp
    rw [hx]
    have hne := sublist_int_ne g.data.trains.keys hs
    obtain ⟨z, hz, -⟩ := g.depStation ht ha (get?_pair_fst (t' := t') (a' := a'))
    obtain ⟨z', hz', -⟩ := g.depStation ht' ha' (get?_pair_snd hne (a := a))
    obtain ⟨b, hb⟩ := g.canMO ht ha.serves ht' ha'.serves
    simp only [orderVar4switchBody, hz, hz', hb, bind, Except.bind, updateY3_eq, updateY4_eq,
      updateY4in_eq]
    split
    · split
      · split <;> exact addOrder_ok _ _ _ _
      · exact addOrder_ok _ _ _ _
    · split <;> exact addOrder_ok _ _ _ _
  exact ⟨y4, by simp only [h1, h2, h3, h4, bind, Except.bind]⟩

/-! ## The builders -/

section
variable {dmax : ℚ} {cat : Cat} {dv : DelayVars} {y : OrderVars}

theorem Gen.minimalSpan (g : Gen td st table t1 r ts tt) (hm : AllMeet td)
    (hdv : Verif.delayVariables ts dmax cat = .ok dv) (hy : Verif.orderVariables ts = .ok y) :
    Oks (Verif.minimalSpan tt dv y ts dmax) := by
  unfold Verif.minimalSpan
  simp only [oks_collect]
  intro e he e2 he2 gr hg p hp
  have hpp := mem_pairs_iff.1 (show (p.1, p.2) ∈ pairs gr from hp)
  have hmem : p.1 ∈ gr ∧ p.2 ∈ gr := ⟨hpp.subset (by simp), hpp.subset (by simp)⟩
  have hne : p.1 ≠ p.2 := by
    have := (g.wellFormed.jd e he e2 he2 gr hg).sublist hpp
    simpa using this
  obtain ⟨x, x2, l, hx, hx2, rfl, -, hruns⟩ := g.jd_mem he he2 hg
  have hyy := (C12_lookups hy).1 e he e2 he2 _ hg
  have one : ∀ j ∈ l.map intKey, ∀ jp ∈ l.map intKey, j ≠ jp →
      Oks (minimalSpanConstrain e.1 e2.1 j jp tt dv y ts dmax) := by
    intro j hj jp hjp hne
    obtain ⟨v, hv⟩ := hyy jp hjp j hj (Ne.symm hne)
    obtain ⟨t, ht, rfl⟩ := List.mem_map.1 hj
    obtain ⟨t', ht', rfl⟩ := List.mem_map.1 hjp
    obtain ⟨b, hb⟩ := hruns t ht
    obtain ⟨b', hb'⟩ := hruns t' ht'
    have hne' : t ≠ t' := fun h => hne (by rw [h])
    obtain ⟨e1, h1⟩ := g.edt (hb'.leaves g.data)
    obtain ⟨e3, h3⟩ := g.edt (hb.leaves g.data)
    obtain ⟨w, hw⟩ := g.headway' hne' hb hb'
    obtain ⟨d1, hd1⟩ := g.delayAt hm hdv (hb'.leaves g.data)
    obtain ⟨d3, hd3⟩ := g.delayAt hm hdv (hb.leaves g.data)
    rw [hx] at hv ⊢
    rw [hx2]
    simp only [minimalSpanConstrain, intKey] at hv ⊢
    simp only [h1, h3, hw, hd1, hd3, hv, bind, Except.bind]
    split <;> exact ⟨_, rfl⟩
  obtain ⟨c1, h1⟩ := one p.1 hmem.1 p.2 hmem.2 hne
  obtain ⟨c2, h2⟩ := one p.2 hmem.2 p.1 hmem.1 (Ne.symm hne)
  exact ⟨c1 ++ c2, by simp only [h1, h2, bind, Except.bind]⟩

theorem Gen.singleLine (g : Gen td st table t1 r ts tt) (hm : AllMeet td)
    (hdv : Verif.delayVariables ts dmax cat = .ok dv) (hy : Verif.orderVariables ts = .ok y) :
    Oks (Verif.singleLine tt dv y ts dmax) := by
  unfold Verif.singleLine
  simp only [oks_collect]
  intro e he p hp
  split
  · obtain ⟨⟨v, hv⟩, v', hv'⟩ := (C12_lookups hy).2.1 e he p hp
    obtain ⟨x, x2, t, t', hx, rfl, ho⟩ := g.josingle_mem he hp
    have one : ∀ {x x2 t t'}, Opposite td x x2 t t' → (∃ v, getY4singleline y (.int t) (.int t')
        (.str x) (.str x2) = .ok v) →
        Oks (singleLineConstrain (.str x) (.str x2) (.int t) (.int t') tt dv y ts dmax) := by
      rintro x x2 t t' ⟨b, -, hb, hb'⟩ ⟨v, hv⟩
      obtain ⟨e1, h1⟩ := g.edt (hb'.leaves g.data)
      obtain ⟨e3, h3⟩ := g.edt (hb.leaves g.data)
      obtain ⟨w, hw⟩ := g.pass' hb'
      obtain ⟨d1, hd1⟩ := g.delayAt hm hdv (hb'.leaves g.data)
      obtain ⟨d3, hd3⟩ := g.delayAt hm hdv (hb.leaves g.data)
      simp only [singleLineConstrain, h1, h3, hw, hd1, hd3, hv, bind, Except.bind]
      split <;> exact ⟨_, rfl⟩
    rw [hx] at hv hv' ⊢
    obtain ⟨c1, h1⟩ := one ho ⟨v, hv⟩
    obtain ⟨c2, h2⟩ := one ho.symm ⟨v', hv'⟩
    exact ⟨c1 ++ c2, by simp only [h1, h2, bind, Except.bind]⟩
  · exact ⟨_, rfl⟩

theorem Gen.minimalStay (g : Gen td st table t1 r ts tt) (hm : AllMeet td)
    (hdv : Verif.delayVariables ts dmax cat = .ok dv) : Oks (Verif.minimalStay tt dv ts) := by
  unfold Verif.minimalStay
  simp only [oks_collect]
  intro j hj
  rw [g.J] at hj
  obtain ⟨t, ht, rfl⟩ := List.mem_map.1 hj
  obtain ⟨rows, ht⟩ := g.mem_J.1 (by rw [g.J]; exact hj)
  simp only [intKey, Dict.at!_ok.2 (g.path_some ht), bind, Except.bind]
  rw [oks_collect]
  intro s hs
  obtain ⟨x, hx, rfl⟩ := List.mem_map.1 hs
  obtain ⟨p, hp, hc⟩ := g.prevStr ht (mem_stations.1 hx)
  simp only [minimalStayConstrain, strKey, Dict.at!_ok.2 (g.path_some ht), hp, bind, Except.bind]
  split
  · rename_i hpn
    rcases hc with ⟨x0, mid, rfl, hc⟩ | ⟨rfl, -⟩
    · have hl0 := leaves_of_next g.data ht hc
      obtain ⟨v0, hv0⟩ := g.delayAt hm hdv hl0
      obtain ⟨dj, hdj⟩ : ∃ dj, Dict.at! dv (.int t) = .ok dj := by
        unfold Verif.delayAt at hv0
        obtain ⟨dj, hdj, -⟩ := bind_ok hv0
        exact ⟨dj, hdj⟩
      simp only [hdj]
      split
      · rename_i d hd
        have hv : Verif.delayAt dv (.int t) (.str x) = .ok d := by
          unfold Verif.delayAt
          simp only [hdj, bind, Except.bind, Dict.at!_ok.2 hd]
        obtain ⟨t', x', h1, h2, hl⟩ :=
          g.leaves_of_delay ((delayVariables_find hdv).1 (delayAt_ok.1 hv)).1
        cases h1; cases h2
        obtain ⟨e1, h1⟩ := g.edt hl
        obtain ⟨e2, h2⟩ := g.edt hl0
        obtain ⟨w, hw⟩ := g.pass' (Runs.of ht hc)
        obtain ⟨row, hrow⟩ := hl
        have hst := tauStop_ok.2 (g.stop t x row hrow)
        simp only [h1, h2, hw, hst, hv0]
        exact ⟨_, rfl⟩
      · exact ⟨_, rfl⟩
    · exact absurd rfl hpn
  · exact ⟨_, rfl⟩

/-- a train that ends in a station came from another one -/
theorem Gen.ends_prev (g : Gen td st table t1 r ts tt) {t : Int} {x : String} {rows : List Row}
    (ht : TableOf td t rows) (he : EndsIn td st t x) :
    ∃ x0 mid, Consecutive rows x0 x mid := by
  obtain ⟨rows', rl, ht', hl, hs⟩ := (endsIn_iff g.data).1 he
  cases ht.unique ht'
  have ho := (g.data.trains.table ht).1
  obtain ⟨s, row, rows', ht', hr, hrs, hnl⟩ := g.served t rows ht
  cases ht.unique ht'
  have hmem : rl ∈ rows := List.mem_of_getLast? hl
  obtain ⟨p, -, hc⟩ := g.prevStr ht ⟨rl, hmem, hs⟩
  rcases hc with ⟨x0, mid, -, hc⟩ | ⟨-, fr, pre, post, hsplit, hfs, hpre⟩
  · exact ⟨x0, mid, hc⟩
  · exfalso
    obtain ⟨init, hinit⟩ : ∃ init, rows = init ++ [rl] := by
      rw [List.getLast?_eq_some_iff] at hl
      exact hl
    obtain ⟨h1, h2, h3⟩ := once_split ho hsplit hinit hfs hs
    subst h3
    rw [hsplit] at hr
    rcases List.mem_append.1 hr with h | h
    · rw [hpre row h] at hrs; cases hrs
    · simp only [List.mem_singleton] at h
      subst h
      rw [hsplit] at hnl
      simp at hnl

theorem trackSkip_ok (g : Gen td st table t1 r ts tt) (x : String) (t : Int) :
    ∃ b, trackSkip ts (.str x) (.int t) = .ok b ∧ (b = false → ¬ EndsIn td st t x) := by
  have key : EndsIn td st t x → Skips ts (.int t) (.str x) := fun h =>
    (g.skips _ _).2 ⟨t, x, rfl, rfl, h⟩
  unfold trackSkip
  cases hd : ts.skipStation with
  | none =>
    refine ⟨false, rfl, fun _ h => ?_⟩
    obtain ⟨d, h1, -⟩ := key h
    rw [hd] at h1; cases h1
  | some d =>
    simp only
    cases hx : Dict.get? d (.int t) with
    | none =>
      refine ⟨false, rfl, fun _ h => ?_⟩
      obtain ⟨d', h1, h2⟩ := key h
      rw [hd] at h1; cases h1
      rw [hx] at h2; cases h2
    | some v =>
      obtain ⟨n, rfl⟩ := g.skipInt d _ v hd hx
      simp only
      refine ⟨strContains n x, rfl, fun hb h => ?_⟩
      obtain ⟨d', h1, h2⟩ := key h
      rw [hd] at h1; cases h1
      rw [hx] at h2; cases h2
      simp [strContains] at hb

theorem subsequent_none (g : Gen td st table t1 r ts tt) (hm : AllMeet td) {t : Int} {x : String}
    (h : ¬ EndsIn td st t x) : subsequentTrainAtJround ts (.int t) (.str x) = .none := by
  by_contra hne
  obtain ⟨x', t', -, h1, h2, -, he⟩ := g.continued hm (continuedBy_iff.2 ⟨rfl, hne⟩)
  cases h1; cases h2
  exact h he

theorem Gen.takes (g : Gen td st table t1 r ts tt) (hm : AllMeet td) {t : Int} {x : String}
    (h : previousTrainFromJround ts (.int t) (.str x) ≠ .none) :
    ∃ t', previousTrainFromJround ts (.int t) (.str x) = .int t' ∧ EndsIn td st t' x := by
  obtain ⟨ps, hs, hf, -⟩ := takesOver_iff.2 ⟨rfl, h⟩
  obtain ⟨x', a, b, h1, hq, -, -, -, bl, hb, hb'⟩ := g.round hm hs (List.mem_of_find?_eq_some hf)
  cases h1
  injection hq with h2 h3
  exact ⟨a, h2, meets_ends hb hb'⟩

theorem Gen.arrival (g : Gen td st table t1 r ts tt) (hm : AllMeet td) {t : Int} {x : String}
    {rows : List Row} (ht : TableOf td t rows) (hx : Serves rows x) :
    ∃ a ref, arrivalRef (.str x) (.int t) tt ts = .ok (a, ref) ∧
      (ref = none ∨ ∃ t' x', ref = some (.int t', .str x') ∧ Leaves td t' x') := by
  obtain ⟨p, hp, hc⟩ := g.prevStr ht hx
  simp only [arrivalRef, Dict.at!_ok.2 (g.path_some ht), hp, bind, Except.bind]
  split
  · rename_i hne
    obtain ⟨t', ht', he⟩ := g.takes hm hne
    obtain ⟨rows', r', hT, -⟩ := id he
    obtain ⟨x0, mid, hc'⟩ := g.ends_prev hT he
    have hl := leaves_of_next g.data hT hc'
    obtain ⟨e, he⟩ := g.edt hl
    obtain ⟨w, hw⟩ := g.pass' (Runs.of hT hc')
    rw [ht']
    simp only [Dict.at!_ok.2 (g.path_some hT), prevStr_of_next g hT hc', he, hw]
    exact ⟨_, _, rfl, .inr ⟨t', x0, rfl, hl⟩⟩
  · split
    · rename_i hpn
      rcases hc with ⟨x0, mid, rfl, hc⟩ | ⟨rfl, -⟩
      · have hl := leaves_of_next g.data ht hc
        obtain ⟨e, he⟩ := g.edt hl
        obtain ⟨w, hw⟩ := g.pass' (Runs.of ht hc)
        simp only [he, hw]
        exact ⟨_, _, rfl, .inr ⟨t, x0, rfl, hl⟩⟩
      · exact absurd rfl hpn
    · rename_i hpn
      have hl : Leaves td t x := by
        refine (leaves_iff g.data).2 ⟨⟨rows, ht, hx⟩, fun he => ?_⟩
        obtain ⟨x0, mid, hc'⟩ := g.ends_prev ht he
        rw [prevStr_of_next g ht hc'] at hp
        cases hp
        exact hpn (by rintro ⟨⟩)
      obtain ⟨e, he⟩ := g.edt hl
      simp only [he]
      exact ⟨_, _, rfl, .inl rfl⟩

theorem Gen.trainsOrder (g : Gen td st table t1 r ts tt) (hm : AllMeet td)
    (hdv : Verif.delayVariables ts dmax cat = .ok dv) {t t' : Int} {x : String}
    {rows rows' : List Row} (ht : TableOf td t rows) (ht' : TableOf td t' rows')
    (hx : Serves rows x) (hx' : Serves rows' x) (hne : ¬ EndsIn td st t x)
    (hy3 : ∃ v, getY3 y (.int t') (.int t) (.str x) = .ok v) :
    Oks (trainsOrderAtS (.str x) (.int t) (.int t') tt dv y ts dmax) := by
  have hl : Leaves td t x := (leaves_iff g.data).2 ⟨⟨rows, ht, hx⟩, hne⟩
  obtain ⟨a, ref, ha, href⟩ := g.arrival hm ht' hx'
  obtain ⟨e, he⟩ := g.edt hl
  obtain ⟨d, hd⟩ := g.delayAt hm hdv hl
  obtain ⟨v, hv⟩ := hy3
  have hres : addSwitchRes (.str x) tt ts = .ok 0 := by unfold addSwitchRes; rw [g.noAdd]
  obtain ⟨le, hle⟩ : ∃ le, arrivalExpr dv a ref = .ok le := by
    rcases href with rfl | ⟨t'', x'', rfl, hl'⟩
    · exact ⟨_, rfl⟩
    · obtain ⟨d', hd'⟩ := g.delayAt hm hdv hl'
      simp only [arrivalExpr, hd', bind, Except.bind]
      exact ⟨_, rfl⟩
  simp only [trainsOrderAtS, subsequent_none g hm hne, ne_eq, not_true_eq_false, if_false, ha, he,
    hres, hle, hv, hd, bind, Except.bind]
  split <;> exact ⟨_, rfl⟩

theorem Gen.keepOrder (g : Gen td st table t1 r ts tt) (hy : Verif.orderVariables ts = .ok y)
    {e : Val × List (List Val)} (he : e ∈ ts.Jtrack) {gr : List Val} (hg : gr ∈ e.2)
    {t t' : Int} {x : String} (hx : e.1 = .str x) (hs : [t, t'].Sublist (Dict.keys td))
    (hp : (Val.int t, Val.int t') ∈ pairs gr)
    {rows rows' : List Row} (ht : TableOf td t rows) (ht' : TableOf td t' rows')
    (hx1 : Serves rows x) (hx' : Serves rows' x) :
    Oks (keepTrainsOrder (.str x) (.int t) (.int t') y ts) := by
  obtain ⟨p, hpp, -⟩ := g.prevStr ht hx1
  obtain ⟨b, hb⟩ := g.canMO ht hx1 ht' hx'
  obtain ⟨gs, hgs⟩ : ∃ gs, Dict.get? ts.Jtrack (.str x) = some gs :=
    Option.isSome_iff_exists.1 ((Dict.get?_isSome _ _).2 (List.mem_map.2 ⟨e, he, hx⟩))
  have hf : findP y (.int t, .int t', oneStation, .str x) ≠ .none := by
    have h1 := hasY3_jtrack hy he hg hp
    rw [hx] at h1
    have h2 := absent_of_listed g.namesOK hy (fun h : Val.int t' = inKey => by cases h)
      (g.listed hs (.str x))
    rcases h1 with h1 | h1
    · exact h1
    · exact absurd h2 h1
  obtain ⟨v, hv⟩ := findP_ne_none.2 hf
  simp only [keepTrainsOrder, Dict.at!_ok.2 (g.path_some ht), hpp, bind, Except.bind]
  split
  · exact ⟨_, rfl⟩
  · split
    · simp only [Dict.at!_ok.2 hgs]
      split
      · simp only [hb]
        split
        · unfold at4 at hv
          obtain ⟨y1, h1, hv⟩ := bind_ok hv
          obtain ⟨y2, h2, hv⟩ := bind_ok hv
          obtain ⟨y3, h3, hv⟩ := bind_ok hv
          simp only at h1 h2 h3
          simp only [h1, h2, h3]
          split <;> exact ⟨_, rfl⟩
        · rename_i hmo
          split
          · rename_i hent
            obtain ⟨l, hl, pr, hpr, ha, hb'⟩ := entering_iff.1 hent
            have hne := sublist_int_ne g.data.trains.keys hs
            have hbt : b = true := by simpa using hmo
            subst hbt
            obtain ⟨w, hw⟩ : ∃ w, getY4in y inKey (.int t) (.int t') (.str x) = .ok w := by
              rw [getY4in_eq]
              refine getP_ok.2 ?_
              have hmem := Dict.mem_of_get? hl
              obtain ⟨x', u, u', a, a', R, R', h1, h2, hsub, hR, hR', hpl, hpl'⟩ :=
                g.jswitch_mem hmem hpr
              cases h1
              have hu := sublist_int_ne g.data.trains.keys hsub
              -- the two trains of the pair are t and t'
              have hcases : (u = t ∧ u' = t') ∨ (u = t' ∧ u' = t) := by
                have m1 := Dict.mem_of_get? ha
                have m2 := Dict.mem_of_get? hb'
                rw [h2] at m1 m2
                simp only [List.mem_cons, Prod.mk.injEq, Val.int.injEq, List.not_mem_nil,
                  or_false] at m1 m2
                rcases m1 with ⟨rfl, -⟩ | ⟨rfl, -⟩ <;> rcases m2 with ⟨rfl, -⟩ | ⟨rfl, -⟩
                · exact absurd rfl hne
                · exact .inl ⟨rfl, rfl⟩
                · exact .inr ⟨rfl, rfl⟩
                · exact absurd rfl hne
              have hin : a = "in" ∧ a' = "in" := by
                have q1 : Dict.get? pr (.int u) = some a := by rw [h2]; exact get?_pair_fst
                have q2 : Dict.get? pr (.int u') = some a' := by rw [h2]; exact get?_pair_snd hu
                rcases hcases with ⟨rfl, rfl⟩ | ⟨rfl, rfl⟩
                · rw [q1] at ha; rw [q2] at hb'
                  exact ⟨by simpa using ha, by simpa using hb'⟩
                · rw [q2] at ha; rw [q1] at hb'
                  exact ⟨by simpa using hb', by simpa using ha⟩
              obtain ⟨rfl, rfl⟩ := hin
              obtain ⟨z, hz, hzc⟩ := g.depStation hR hpl (get?_pair_fst (t' := u') (a' := "in"))
              obtain ⟨z', hz', hzc'⟩ := g.depStation hR' hpl' (get?_pair_snd hu (a := "in"))
              have hzx : z ≠ x := by
                rcases hzc with ⟨h, -⟩ | ⟨-, mid, hc⟩
                · exact absurd h (by decide)
                · exact consecutive_ne (g.data.trains.table hR).1 hc
              have hzx' : z' ≠ x := by
                rcases hzc' with ⟨h, -⟩ | ⟨-, mid, hc⟩
                · exact absurd h (by decide)
                · exact consecutive_ne (g.data.trains.table hR').1 hc
              have hMO : canMOonLine (.int u) (.int u') (.str x) ts = .ok true := by
                rcases hcases with ⟨rfl, rfl⟩ | ⟨rfl, rfl⟩
                · exact hb
                · obtain ⟨b2, hb2⟩ := g.canMO ht' hx' ht hx1
                  rw [hb2]
                  have e1 := canMO_iff hb
                  have e2 := canMO_iff hb2
                  have : b2 = true := e2.2 (mayOvertake_symm (e1.1 rfl))
                  rw [this]
              rw [← h2] at hz hz'
              rcases has_jswitch hy hmem hpr h2 hz hz' with ⟨-, -, -, h⟩ | ⟨-, h, -⟩ | ⟨-, h, -⟩ |
                ⟨-, -, -, h⟩
              · rcases hcases with ⟨rfl, rfl⟩ | ⟨rfl, rfl⟩
                · exact h
                · exact h.symm
              · rcases h with h | h
                · injection h with h; exact absurd h hzx
                · rw [hMO] at h; cases h
              · rcases h with h | h
                · injection h with h; exact absurd h.symm hzx
                · injection h with h; exact absurd h.symm hzx'
              · rcases hcases with ⟨rfl, rfl⟩ | ⟨rfl, rfl⟩
                · exact h
                · exact h.symm
            simp only at hv
            simp only [hw, hv]
            exact ⟨_, rfl⟩
          · exact ⟨_, rfl⟩
      · exact ⟨_, rfl⟩
    · exact ⟨_, rfl⟩

theorem Gen.trackOccupation (g : Gen td st table t1 r ts tt) (hm : AllMeet td)
    (hdv : Verif.delayVariables ts dmax cat = .ok dv) (hy : Verif.orderVariables ts = .ok y) :
    Oks (Verif.trackOccupation tt dv y ts dmax) := by
  unfold Verif.trackOccupation
  simp only [oks_collect]
  intro e he gr hg p hp
  have hpp := mem_pairs_iff.1 (show (p.1, p.2) ∈ pairs gr from hp)
  have hyy := (C12_lookups hy).2.2.1 e he gr hg
  obtain ⟨x, l, hx, rfl, hl, hserve⟩ := g.jtrack_mem he hg
  obtain ⟨t, ht, htp⟩ := List.mem_map.1 (hpp.subset (by simp : p.1 ∈ [p.1, p.2]))
  obtain ⟨t', ht', htp'⟩ := List.mem_map.1 (hpp.subset (by simp : p.2 ∈ [p.1, p.2]))
  obtain ⟨p1, p2⟩ := p
  simp only at htp htp'
  subst htp; subst htp'
  have hsub : [t, t'].Sublist (Dict.keys td) := (map_sublist_int hpp).trans hl
  have hne := sublist_int_ne g.data.trains.keys hsub
  obtain ⟨rows, hT, hS⟩ := hserve t ht
  obtain ⟨rows', hT', hS'⟩ := hserve t' ht'
  have y1 := hyy (.int t) (hpp.subset (by simp [intKey])) (.int t') (hpp.subset (by simp [intKey]))
    (by rintro ⟨⟩; exact hne rfl)
  have y2 := hyy (.int t') (hpp.subset (by simp [intKey])) (.int t) (hpp.subset (by simp [intKey]))
    (by rintro ⟨⟩; exact hne rfl)
  have hk := g.keepOrder hy he hg hx hsub hp hT hT' hS hS'
  rw [hx] at y1 y2 ⊢
  obtain ⟨b, hb, hbf⟩ := trackSkip_ok g x t
  obtain ⟨b', hb', hbf'⟩ := trackSkip_ok g x t'
  change Oks (trackOccBody (.str x) (.int t) (.int t') tt dv y ts dmax)
  unfold trackOccBody
  by_cases hst : notTheSameRollingStock (.int t) (.int t') ts = true
  · rw [if_pos hst]
    obtain ⟨c1, h1⟩ : Oks (trackOccFirst (.str x) (.int t) (.int t') tt dv y ts dmax) := by
      simp only [trackOccFirst, hb', bind, Except.bind]
      split
      · rename_i hbb
        have hbb : b' = false := by simpa using hbb
        obtain ⟨k, hk⟩ := hk
        obtain ⟨o, ho⟩ := g.trainsOrder (dmax := dmax) hm hdv hT' hT hS' hS (hbf' hbb) y1
        simp only [hk, ho]
        exact ⟨_, rfl⟩
      · exact ⟨_, rfl⟩
    obtain ⟨c2, h2⟩ : Oks (trackOccSecond (.str x) (.int t) (.int t') tt dv y ts dmax) := by
      simp only [trackOccSecond, hb, bind, Except.bind]
      split
      · rename_i hbb
        have hbb : b = false := by simpa using hbb
        exact g.trainsOrder (dmax := dmax) hm hdv hT hT' hS hS' (hbf hbb) y2
      · exact ⟨_, rfl⟩
    exact ⟨c1 ++ c2, by simp only [h1, h2, bind, Except.bind]⟩
  · rw [if_neg hst]; exact ⟨_, rfl⟩

theorem Gen.jround_nodup (g : Gen td st table t1 r ts tt) : (Dict.keys ts.Jround).Nodup := by
  obtain ⟨o, ho, hJ⟩ := g.Jround
  rw [hJ, keys_map_key]
  refine List.Nodup.map strKey_inj ?_
  unfold getJround at ho
  obtain ⟨acc, hl, ho⟩ := bind_ok ho
  cases ho
  refine loop_inv hl (fun acc => (Dict.keys acc.1).Nodup) List.nodup_nil ?_
  intro p _ acc acc' hacc h
  unfold jroundStep at h
  obtain ⟨p0, -, h⟩ := bind_ok h
  obtain ⟨p1, -, h⟩ := bind_ok h
  obtain ⟨f0, -, h⟩ := bind_ok h
  obtain ⟨l1, -, h⟩ := bind_ok h
  obtain ⟨f1, -, h⟩ := bind_ok h
  obtain ⟨l0, -, h⟩ := bind_ok h
  simp only at h
  split at h
  · cases h
  · obtain ⟨s, -, h⟩ := bind_ok h
    cases h
    exact Dict.nodup_keys_set hacc _ _

/-- every train that takes over rolling stock has a preparation time in the first cell of its table -/
def TurnaroundOK (td : Trains) : Prop :=
  ∀ x y b, (x = 10 * y + 9 ∨ y = 10 * x + 9) → Meets td x y b →
    ∀ rows row, TableOf td y rows → rows.head? = some row → ∃ v, row.turnaround = some v

/-- the train that begins in a block of a station leaves it -/
theorem Gen.starts_leaves (g : Gen td st table t1 r ts tt) {t : Int} {b x : String}
    (h : FirstBlock td t b) (hb : BelongsTo st b x) :
    ∃ rows row, TableOf td t rows ∧ rows.head? = some row ∧ StopRow td t x row := by
  obtain ⟨rows, row, ht, hh, rfl⟩ := h
  obtain ⟨rest, rfl⟩ : ∃ rest, rows = row :: rest := by
    cases rows with
    | nil => cases hh
    | cons a l => cases hh; exact ⟨l, rfl⟩
  obtain ⟨info, hm⟩ := ht.mem
  have hs := (g.data.tagged _ hm row List.mem_cons_self x).2 hb
  refine ⟨_, row, ht, rfl, _, ht, List.mem_cons_self, hs, fun hl => ?_⟩
  have ho := (g.data.trains.table ht).1
  obtain ⟨s, row', rows', ht', hr', hs', hnl⟩ := g.served t _ ht
  cases ht.unique ht'
  obtain ⟨init, hinit⟩ := List.getLast?_eq_some_iff.1 hl
  obtain ⟨h1, -, h3⟩ := once_split ho (show row :: rest = [] ++ row :: rest from rfl) hinit hs hs
  subst h3
  simp only [List.mem_singleton] at hr'
  subst hr'
  exact hnl rfl

theorem Gen.rollingStock (g : Gen td st table t1 r ts tt) (hm : AllMeet td) (hta : TurnaroundOK td)
    (hdv : Verif.delayVariables ts dmax cat = .ok dv) :
    Oks (rollingStockCirc tt dv ts dmax) := by
  unfold rollingStockCirc
  simp only [oks_collect]
  intro e he p hp
  have hk : (Dict.keys ts.Jround).Nodup := g.jround_nodup
  obtain ⟨x, t, t', hx, rfl, -, -, h9, b, hmeet, hb⟩ :=
    g.round hm (Dict.get?_of_mem hk he) hp
  rw [hx]
  have he := meets_ends hmeet hb
  obtain ⟨rows, rl, hT, -⟩ := id he
  obtain ⟨x0, mid, hc⟩ := g.ends_prev hT he
  obtain ⟨rows', row', hT', hh, hstop⟩ := g.starts_leaves hmeet.2 hb
  obtain ⟨v, hv⟩ := hta t t' b h9 hmeet rows' row' hT' hh
  have hl := leaves_of_next g.data hT hc
  obtain ⟨e1, h1⟩ := g.edt hl
  obtain ⟨e2, h2⟩ := g.edt ⟨row', hstop⟩
  obtain ⟨w, hw⟩ := g.pass' (Runs.of hT hc)
  obtain ⟨d1, hd1⟩ := g.delayAt hm hdv hl
  obtain ⟨d2, hd2⟩ := g.delayAt hm hdv ⟨row', hstop⟩
  have hprep := tauPrep_ok.2 (g.prep t' x row' v hstop hv)
  simp only [circBody, Dict.at!_ok.2 (g.path_some hT), prevStr_of_next g hT hc, h1, h2, hw, hprep,
    hd1, hd2, bind, Except.bind]
  split <;> exact ⟨_, rfl⟩

theorem Gen.switchOccupation (g : Gen td st table t1 r ts tt) (hm : AllMeet td)
    (hdv : Verif.delayVariables ts dmax cat = .ok dv) (hy : Verif.orderVariables ts = .ok y) :
    Oks (Verif.switchOccupation tt dv y ts dmax) := by
  unfold Verif.switchOccupation
  simp only [oks_collect]
  intro e he pair hp
  have hyy := (C12_lookups hy).2.2.2 e he pair hp
  obtain ⟨x, t, t', a, a', rows, rows', hx, rfl, hs, ht, ht', ha, ha'⟩ := g.jswitch_mem he hp
  have hne := sublist_int_ne g.data.trains.keys hs
  obtain ⟨z, hz, hzc⟩ := g.depStation ht ha (get?_pair_fst (t' := t') (a' := a'))
  obtain ⟨z', hz', hzc'⟩ := g.depStation ht' ha' (get?_pair_snd hne (a := a))
  have hyy := hyy _ _ _ _ rfl (.str z) (.str z') (by rw [hx]; exact hz) (by rw [hx]; exact hz')
  rw [hx] at hyy ⊢
  have leavesAt : ∀ {t rows a z}, TableOf td t rows → ((a = "out" ∧ z = x ∧ ∃ x1 mid,
      Consecutive rows x x1 mid) ∨ (a = "in" ∧ ∃ mid, Consecutive rows z x mid)) →
      Leaves td t z ∧ ∃ w, passTo tt (.int t) (.str z) (.str x) = .ok w := by
    rintro t rows a z ht (⟨-, rfl, x1, mid, hc⟩ | ⟨-, mid, hc⟩)
    · exact ⟨leaves_of_next g.data ht hc, 0, by simp [passTo]⟩
    · obtain ⟨w, hw⟩ := g.pass' (Runs.of ht hc)
      refine ⟨leaves_of_next g.data ht hc, w, ?_⟩
      have : Val.str x ≠ .str z := by
        rintro ⟨⟩; exact consecutive_ne (g.data.trains.table ht).1 hc rfl
      simp only [passTo, this, ne_eq, not_false_eq_true, if_true, hw]
  have hres : tauRes tt = .ok 1 := by unfold tauRes; rw [g.res]
  have one : ∀ {t t' z z'}, Leaves td t z → Leaves td t' z' →
      (∃ w, passTo tt (.int t) (.str z) (.str x) = .ok w) →
      (∃ w, passTo tt (.int t') (.str z') (.str x) = .ok w) →
      (∃ w, switchOrderVar (.str x) (.int t) (.str z) (.int t') (.str z') y ts = .ok w) →
      Oks (switchOcc (.str x) (.int t) (.str z) (.int t') (.str z') tt dv y ts dmax) := by
    rintro t t' z z' hl hl' ⟨w, hw⟩ ⟨w', hw'⟩ ⟨v, hv⟩
    obtain ⟨e1, h1⟩ := g.edt hl
    obtain ⟨e2, h2⟩ := g.edt hl'
    obtain ⟨d1, hd1⟩ := g.delayAt hm hdv hl
    obtain ⟨d2, hd2⟩ := g.delayAt hm hdv hl'
    simp only [switchOcc, h1, h2, hres, hw, hw', hv, hd1, hd2, bind, Except.bind]
    split <;> exact ⟨_, rfl⟩
  obtain ⟨hl, hw⟩ := leavesAt ht hzc
  obtain ⟨hl', hw'⟩ := leavesAt ht' hzc'
  simp only [switchBody]
  split
  · obtain ⟨c1, h1⟩ := one hl hl' hw hw' hyy.1
    obtain ⟨c2, h2⟩ := one hl' hl hw' hw hyy.2
    exact ⟨c1 ++ c2, by simp only [hz, hz', h1, h2, bind, Except.bind]⟩
  · exact ⟨_, rfl⟩

theorem Gen.objective (g : Gen td st table t1 r ts tt) (hm : AllMeet td) (hd : dmax ≠ 0)
    (hdv : Verif.delayVariables ts dmax cat = .ok dv) : ∃ o, Verif.objective tt dv ts dmax = .ok o := by
  obtain ⟨l, hl⟩ : ∃ l, objectiveTerms tt dv ts dmax = .ok l := by
    unfold objectiveTerms
    refine collect_succeeds fun j hj => ?_
    rw [g.J] at hj
    obtain ⟨t, ht, rfl⟩ := List.mem_map.1 hj
    obtain ⟨rows, ht⟩ := g.mem_J.1 (by rw [g.J]; exact hj)
    simp only [intKey, Dict.at!_ok.2 (g.path_some ht), bind, Except.bind]
    refine collect_succeeds fun s hs => ?_
    obtain ⟨x, hx, rfl⟩ := List.mem_map.1 hs
    split
    · rename_i hw
      have hl : Leaves td t x := by
        unfold penaltyWeights at hw
        split at hw
        · rename_i w hw'
          exact g.weight t x w hw'
        · exact absurd rfl hw
      obtain ⟨v, hv⟩ := g.delayAt hm hdv hl
      simp only [strKey, hv]
      exact ⟨_, rfl⟩
    · exact ⟨_, rfl⟩
  exact ⟨l.foldl LinExpr.add ⟨[], 0⟩, by unfold Verif.objective; rw [hl]; rfl⟩
end

end Verif
