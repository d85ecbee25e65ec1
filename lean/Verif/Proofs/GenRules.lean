import Verif.Props.SafePlan

/-!
# Generated input: what is listed, in terms of the tables
-/

namespace Verif

variable {td : Trains} {st : Stations} {table : List PathRow} {t1 : String} {r : Int}
  {delays : List (Int × ℚ)} {ts : TrainSets} {tt : Timetable}

/-- Train `t` ends in the block of station `x` where `t'` begins, and the trains have numbers `n` and
`10 n + 9`. Of two trains that meet at both ends only `10 n + 9` hands over. -/
def HandsOn (td : Trains) (st : Stations) (t t' : Int) (x : String) : Prop :=
  t ∈ Dict.keys td ∧ t' ∈ Dict.keys td ∧ (∃ b, Meets td t t' b ∧ BelongsTo st b x) ∧
    (t = 10 * t' + 9 ∨ (t' = 10 * t + 9 ∧ ∀ b, ¬ Meets td t' t b))

theorem table_key {t : Int} {rows : List Row} (h : TableOf td t rows) : t ∈ Dict.keys td := by
  obtain ⟨info, hm⟩ := h.mem
  exact List.mem_map.2 ⟨_, hm, rfl⟩

theorem Gen.tag (g : Gen td st table t1 r ts tt) {t : Int} {rows : List Row} (h : TableOf td t rows)
    {q : Row} (hq : q ∈ rows) {x : String} (hb : BelongsTo st q.path x) : q.station = some x := by
  obtain ⟨info, hm⟩ := h.mem
  exact (g.data.tagged _ hm q hq x).2 hb

theorem Gen.round_iff (g : Gen td st table t1 r ts tt) (hm : AllMeet td) {s j j' : Val} :
    (∃ ps, Dict.get? ts.Jround s = some ps ∧ (j, j') ∈ ps) ↔
      ∃ x t t', s = .str x ∧ j = .int t ∧ j' = .int t' ∧ HandsOn td st t t' x := by
  obtain ⟨o, ho, hJ⟩ := g.Jround
  constructor
  · rintro ⟨ps, h1, h2⟩
    obtain ⟨x, t, t', rfl, hq, -, -, -, -⟩ := g.round hm h1 h2
    cases hq
    refine ⟨x, t, t', rfl, rfl, rfl, ?_⟩
    rw [hJ] at h1
    obtain ⟨k, v, hk, rfl, hv⟩ := get?_map_some strKey_inj _ h1
    cases hk
    obtain ⟨p, hp, hpe⟩ := List.mem_map.1 h2
    have e1 := congrArg Prod.fst hpe
    have e2 := congrArg Prod.snd hpe
    cases e1
    cases e2
    obtain ⟨a, b, c, d⟩ := (C31_computed td st g.data.stations.1 hm o ho x p.1 p.2).1 ⟨v, hv, hp⟩
    exact ⟨a, b, c, d⟩
  · rintro ⟨x, t, t', rfl, rfl, rfl, a, b, c, d⟩
    obtain ⟨l, hl, hp⟩ := (C31_computed td st g.data.stations.1 hm o ho x t t').2 ⟨a, b, c, d⟩
    refine ⟨l.map fun p => (intKey p.1, intKey p.2), ?_, List.mem_map.2 ⟨_, hp, rfl⟩⟩
    rw [hJ]
    exact (get?_map_key strKey_inj _ o x).trans (by rw [hl]; rfl)

/-- trains with numbers `n`, `10 n + 9` have the same rolling stock -/
theorem Gen.sameStock (g : Gen td st table t1 r ts tt) (hm : AllMeet td) {t t' : Int}
    (h : t ∈ Dict.keys td) (h' : t' ∈ Dict.keys td) (hne : t ≠ t') (hp : Paired t t') :
    SameStock ts (.int t) (.int t') := by
  have key : ∀ n, n ∈ Dict.keys td → 10 * n + 9 ∈ Dict.keys td →
      ∃ e ∈ ts.Jround, (Val.int n, Val.int (10 * n + 9)) ∈ e.2 ∨
        (Val.int (10 * n + 9), Val.int n) ∈ e.2 := by
    intro n h1 h2
    obtain ⟨o, ho, hJ⟩ := g.Jround
    have ho' := ho
    unfold getJround at ho'
    obtain ⟨acc, hl, ho'⟩ := bind_ok ho'
    have hp9 : (n, 10 * n + 9) ∈ getTrainsPair9 td := mem_pair9.2 ⟨h1, h2, rfl⟩
    obtain ⟨s, q, hf⟩ := loop_each hl (fun p _ => p = (n, 10 * n + 9) → ∃ s q, FoundRound td st p s q)
      (by
        rintro x - a b hab rfl
        obtain ⟨s, q, hq, -⟩ := jroundStep_meets (hm n h1 h2) hab
        exact ⟨s, q, (hq s q).2 ⟨rfl, rfl⟩⟩)
      (fun x _ z _ a b hq _ => hq) _ hp9 rfl
    obtain ⟨b, hb, hor⟩ := hf
    have hb' := (getBlockStation_iff g.data.stations.1).1 hb
    have : ∃ j j', (∃ l, Dict.get? o s = some l ∧ (j, j') ∈ l) ∧
        ((j = n ∧ j' = 10 * n + 9) ∨ (j = 10 * n + 9 ∧ j' = n)) := by
      rcases hor with ⟨hmt, -⟩ | ⟨hmt, hn, -⟩
      · exact ⟨_, _, (C31_computed td st g.data.stations.1 hm o ho s _ _).2
          ⟨h2, h1, ⟨b, hmt, hb'⟩, .inl rfl⟩, .inr ⟨rfl, rfl⟩⟩
      · exact ⟨_, _, (C31_computed td st g.data.stations.1 hm o ho s _ _).2
          ⟨h1, h2, ⟨b, hmt, hb'⟩, .inr ⟨rfl, hn⟩⟩, .inl ⟨rfl, rfl⟩⟩
    obtain ⟨j, j', ⟨l, hl, hj⟩, hjj⟩ := this
    refine ⟨(strKey s, l.map fun p => (intKey p.1, intKey p.2)), ?_, ?_⟩
    · rw [hJ]
      exact List.mem_map.2 ⟨_, Dict.mem_of_get? hl, rfl⟩
    · rcases hjj with ⟨rfl, rfl⟩ | ⟨rfl, rfl⟩
      · exact .inl (List.mem_map.2 ⟨_, hj, rfl⟩)
      · exact .inr (List.mem_map.2 ⟨_, hj, rfl⟩)
  refine ⟨fun e => hne (by cases e; rfl), ?_⟩
  rcases hp with rfl | rfl
  · obtain ⟨e, he, hor⟩ := key _ h' h
    exact ⟨e, he, hor.symm⟩
  · exact key _ h h'

/-- trains of a group run over the same blocks -/
theorem Gen.jd_same (g : Gen td st table t1 r ts tt) (hl : LinesClear td)
    {e : Val × Dict Val (List (List Val))} (he : e ∈ ts.Jd) {e2 : Val × List (List Val)}
    (he2 : e2 ∈ e.2) {gr : List Val} (hg : gr ∈ e2.2) {j j' : Val} (hj : j ∈ gr) (hj' : j' ∈ gr) :
    ∃ x x2 t t' b, e.1 = .str x ∧ e2.1 = .str x2 ∧ j = .int t ∧ j' = .int t' ∧
      Runs td t x x2 b ∧ Runs td t' x x2 b := by
  obtain ⟨d, hd, hJ⟩ := g.Jd
  obtain ⟨hk1, hk2⟩ := jd_keys_nodup hd
  rw [hJ] at he
  obtain ⟨x, v, hx, rfl⟩ := mem_map_pair (g := fun v : Dict String (List (List Int)) =>
    v.map fun f => (strKey f.1, f.2.map (·.map intKey))) he
  obtain ⟨x2, gs, hx2, rfl⟩ := mem_map_pair (g := fun v : List (List Int) =>
    v.map (·.map intKey)) he2
  obtain ⟨l, hll, rfl⟩ := List.mem_map.1 hg
  obtain ⟨t, ht, rfl⟩ := List.mem_map.1 hj
  obtain ⟨t', ht', rfl⟩ := List.mem_map.1 hj'
  have h1 : Dict.get? d x = some v := Dict.get?_of_mem hk1 hx
  have h2 : Dict.get? v x2 = some gs := Dict.get?_of_mem (hk2 _ hx) hx2
  obtain ⟨hno, hst⟩ := jd_station g.data.trains.keys g.data.stations.1.1 hd x
  have hin : x ∈ chosen st none := by
    by_contra h
    rw [hno h] at h1; cases h1
  obtain ⟨⟨hall, -, hsame⟩, -⟩ := C29_groups_partial td st g.data.trains.keys g.data.stations.1.1
    g.data.tagged g.data.trains.once none d hd x x2 hin hin (hl x x2) v h1 gs h2
  obtain ⟨b, hb⟩ := (hall t).1 (List.mem_flatMap.2 ⟨l, hll, ht⟩)
  obtain ⟨b', hb'⟩ := (hall t').1 (List.mem_flatMap.2 ⟨l, hll, ht'⟩)
  cases hsame l hll t ht t' ht' b b' hb hb'
  exact ⟨x, x2, t, t', b, rfl, rfl, rfl, rfl, hb, hb'⟩

/-- trains of a group of a station have a common block there -/
theorem Gen.jtrack_share (g : Gen td st table t1 r ts tt) {e : Val × List (List Val)}
    (he : e ∈ ts.Jtrack) {gr : List Val} (hg : gr ∈ e.2) {j j' : Val} (hj : j ∈ gr) (hj' : j' ∈ gr) :
    ∃ x t t' rows rows' q q', e.1 = .str x ∧ j = .int t ∧ j' = .int t' ∧ TableOf td t rows ∧
      TableOf td t' rows' ∧ q ∈ rows ∧ q' ∈ rows' ∧ q.station = some x ∧ q'.station = some x ∧
      q.path = q'.path ∧ x ∉ ["KO(KS)", "KO(IC)"] ∧ q.path ∉ blocksLeftOut := by
  obtain ⟨o, ho, hJ⟩ := g.Jtrack
  have hk := jtrack_keys ho
  rw [hJ] at he
  obtain ⟨x, v, hx, rfl⟩ := mem_map_pair (g := fun v : List (List Int) => v.map (·.map intKey)) he
  obtain ⟨l, hl, rfl⟩ := List.mem_map.1 hg
  obtain ⟨t, ht, rfl⟩ := List.mem_map.1 hj
  obtain ⟨t', ht', rfl⟩ := List.mem_map.1 hj'
  have h1 : Dict.get? o x = some v := Dict.get?_of_mem hk hx
  have hks : (Dict.keys st).Nodup := g.data.stations.1.1
  have hin : x ∈ chosen st none := by
    by_contra h
    rw [C28_others td st none o ho x (.inl h)] at h1; cases h1
  have hex : x ∉ ["KO(KS)", "KO(IC)"] := by
    intro h
    rw [C28_others td st none o ho x (.inr h)] at h1; cases h1
  obtain ⟨bs, hbs⟩ : ∃ bs, (x, bs) ∈ st := by
    obtain ⟨e', he', rfl⟩ := List.mem_map.1 (show x ∈ Dict.keys st from hin)
    exact ⟨e'.2, he'⟩
  obtain ⟨gs, hgs, -, -, hmem, hsame⟩ := C28_groups td st g.data.trains.keys hks g.data.tagged none o
    ho x bs hbs hin hex
  rw [h1] at hgs; cases hgs
  have hf : t ∈ flatten v := List.mem_flatMap.2 ⟨l, hl, ht⟩
  have hf' : t' ∈ flatten v := List.mem_flatMap.2 ⟨l, hl, ht'⟩
  obtain ⟨rows, hr, ⟨q, hq, bs1, hbs1, hqb⟩, hne⟩ := (hmem t).1 hf
  obtain ⟨rows', hr', -, -⟩ := (hmem t').1 hf'
  obtain ⟨q', hq', e'⟩ := ((hsame t rows t' rows' hr hr' hf hf').1 ⟨l, hl, ht, ht'⟩ q.path
    ⟨bs1, hbs1, hqb⟩).1 ⟨q, hq, rfl⟩
  have hst : q.station = some x := g.tag hr hq ⟨bs1, hbs1, hqb⟩
  refine ⟨x, t, t', rows, rows', q, q', rfl, rfl, rfl, hr, hr', hq, hq', hst,
    g.tag hr' hq' ⟨bs1, hbs1, e' ▸ hqb⟩, e'.symm, hex, fun hbl => hne ⟨q.path, hbl, ?_⟩⟩
  obtain ⟨info, hmm⟩ := hr.mem
  have e1 := blocksList_eq hks (g.data.tagged _ hmm) hbs
  have e2 := stationBlocks_eq g.data.stations (g.data.tagged _ hmm) (g.data.trains.once _ hmm) hq hst
  simp only at e1 e2
  rw [e1] at e2
  exact Except.ok.inj e2

/-- Trains `t` and `t'` pass a common switch of `x` (switches as the code reads them), not at the
stations and for the movements that are left out; `a`, `a'` tell whether they enter or leave. -/
structure ShareSwitch (td : Trains) (table : List PathRow) (t t' : Int) (x a a' : String) : Prop where
  other : t ≠ t'
  stock : ¬ Paired t t'
  station : x ∉ ["KO(IC)", "KO(KS)"]
  ko : x = "KO(STM)" → ¬ ToOrFromKO td t a ∧ ¬ ToOrFromKO td t' a'
  common : ∃ S S' z, SwitchesAt td (zeros table) t x a S ∧ SwitchesAt td (zeros table) t' x a' S' ∧
    z ∈ S ∧ z ∈ S'

theorem ShareSwitch.symm {t t' : Int} {x a a' : String} (h : ShareSwitch td table t t' x a a') :
    ShareSwitch td table t' t x a' a where
  other := h.other.symm
  stock := fun e => h.stock e.symm
  station := h.station
  ko := fun e => (h.ko e).symm
  common := by
    obtain ⟨S, S', z, h1, h2, h3, h4⟩ := h.common
    exact ⟨S', S, z, h2, h1, h4, h3⟩

/-- what is listed for switches -/
theorem Gen.jswitch_share (g : Gen td st table t1 r ts tt) (hm : AllMeet td) (hcells : SameCells table)
    {e : Val × List (Dict Val String)} (he : e ∈ ts.Jswitch) {j j' : Val} {a a' : String}
    (hp : [(j, a), (j', a')] ∈ e.2) (hs : ¬ SameStock ts j j') :
    ∃ x t t', e.1 = .str x ∧ j = .int t ∧ j' = .int t' ∧ ShareSwitch td table t t' x a a' := by
  obtain ⟨x, t, t', b, b', rows, rows', e1, e2, hsub, ht, ht', -⟩ := g.jswitch_mem he hp
  simp only [List.cons.injEq, Prod.mk.injEq, and_true] at e2
  obtain ⟨⟨rfl, rfl⟩, rfl, rfl⟩ := e2
  have hne : t ≠ t' := sublist_int_ne g.data.trains.keys hsub
  refine ⟨x, t, t', e1, rfl, rfl, ?_⟩
  obtain ⟨o, ho, hJ⟩ := g.Jswitch
  rw [hJ] at he
  obtain ⟨y, v, hy, rfl⟩ := mem_map_pair (g := fun v : List (Dict Int String) =>
    v.map fun x => x.map fun y => (intKey y.1, y.2)) he
  cases e1
  obtain ⟨l, hl, hle⟩ := List.mem_map.1 hp
  have h1 : Dict.get? o x = some v := Dict.get?_of_mem (jswitch_keys_nodup ho) hy
  have hl' : l = [(t, a), (t', a')] := by
    match l, hle with
    | [p, q], hle =>
      simp only [List.map_cons, List.map_nil, List.cons.injEq, Prod.mk.injEq, and_true] at hle
      obtain ⟨⟨i1, i2⟩, i3, i4⟩ := hle
      obtain ⟨p1, p2⟩ := p
      obtain ⟨q1, q2⟩ := q
      cases i1; cases i3; cases i2; cases i4
      rfl
  subst hl'
  obtain ⟨hno, -⟩ := jswitch_station g.data.stations.1.1 ho x
  have hin : x ∈ chosen st none := by
    by_contra h
    rw [hno h] at h1; cases h1
  have hsp : x ∉ ["KO(IC)", "KO(KS)"] := by
    intro h
    rw [C32_special td st table g.data.stations.1.1 none o ho x hin (by simpa using h)] at h1
    cases h1
    cases hl
  rw [← jswitch_zeros] at ho
  obtain ⟨v', hv', -, hall⟩ := C32_stations_partial td st (zeros table) g.data.stations g.data.tagged
    g.data.trains (zeros_noWhole table) (sameCells_zeros hcells) none o ho x hin hsp
  rw [h1] at hv'; cases hv'
  obtain ⟨hko, S, S', hS, hS', z, hz, hz'⟩ := (hall t a t' a' hne).1 (.inl hl)
  exact ⟨hne, fun hp => hs (g.sameStock hm (table_key ht) (table_key ht') hne hp), hsp, hko,
    S, S', z, hS, hS', hz, hz'⟩

end Verif
