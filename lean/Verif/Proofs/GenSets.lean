import Verif.Proofs.GenPaths

/-!
# Generated input: the sets of trains
-/

namespace Verif

variable {td : Trains} {st : Stations} {table : List PathRow} {t1 : String} {r : Int}
  {ts : TrainSets} {tt : Timetable}

theorem trainsAt_sublist (td : Trains) (b : Bool) (bs : List String) :
    (trainsAt td b bs).Sublist (Dict.keys td) := List.filter_sublist.map Prod.fst

theorem mem_map_pair {K V K' V' : Type} {f : K → K'} {g : V → V'} {d : Dict K V} {e : K' × V'}
    (h : e ∈ d.map fun e => (f e.1, g e.2)) : ∃ k v, (k, v) ∈ d ∧ e = (f k, g v) := by
  obtain ⟨x, hx, rfl⟩ := List.mem_map.1 h
  exact ⟨x.1, x.2, hx, rfl⟩

/-! ## Following trains -/

theorem Gen.jd_mem (g : Gen td st table t1 r ts tt) {e : Val × Dict Val (List (List Val))}
    (he : e ∈ ts.Jd) {e2 : Val × List (List Val)} (he2 : e2 ∈ e.2) {gr : List Val} (hg : gr ∈ e2.2) :
    ∃ x x2, ∃ l : List Int, e.1 = .str x ∧ e2.1 = .str x2 ∧ gr = l.map intKey ∧ l.Sublist (Dict.keys td) ∧
      ∀ t ∈ l, ∃ blocks, Runs td t x x2 blocks := by
  obtain ⟨d, hd, hJ⟩ := g.Jd
  obtain ⟨hk1, hk2⟩ := jd_keys_nodup hd
  rw [hJ] at he
  obtain ⟨x, v, hx, rfl⟩ := mem_map_pair (g := fun v : Dict String (List (List Int)) =>
    v.map fun f => (strKey f.1, f.2.map (·.map intKey))) he
  obtain ⟨x2, gs, hx2, rfl⟩ := mem_map_pair (g := fun v : List (List Int) =>
    v.map (·.map intKey)) he2
  obtain ⟨l, hl, rfl⟩ := List.mem_map.1 hg
  have h1 : Dict.get? d x = some v := Dict.get?_of_mem hk1 hx
  have h2 : Dict.get? v x2 = some gs := Dict.get?_of_mem (hk2 _ hx) hx2
  obtain ⟨hno, hst⟩ := jd_station g.data.trains.keys g.data.stations.1.1 hd x
  have hin : x ∈ chosen st none := by
    by_contra h
    rw [hno h] at h1; cases h1
  obtain ⟨bs, hbs⟩ : ∃ bs, (x, bs) ∈ st := by
    obtain ⟨e', he', rfl⟩ := List.mem_map.1 (show x ∈ Dict.keys st from hin)
    exact ⟨e'.2, he'⟩
  obtain ⟨v', hv', inv⟩ := hst bs hbs hin
  rw [h1] at hv'; cases hv'
  refine ⟨x, x2, l, rfl, rfl, rfl, (inv.order x2 gs h2 l hl).trans (trainsAt_sublist _ _ _),
    fun t ht => ?_⟩
  exact (nextOf_iff g.data.trains.once).1
    ((inv.mem x2 t).1 ⟨gs, h2, List.mem_flatMap.2 ⟨l, hl, ht⟩⟩).2

theorem Gen.jd_together (g : Gen td st table t1 r ts tt) {t t' : Int} {x x2 : String}
    {b : List String} (h : Runs td t x x2 b) (h' : Runs td t' x x2 b) :
    ∃ d gs, Dict.get? ts.Jd (.str x) = some d ∧ Dict.get? d (.str x2) = some gs ∧
      ∃ gr ∈ gs, .int t ∈ gr ∧ .int t' ∈ gr := by
  obtain ⟨d, hd, hJ⟩ := g.Jd
  obtain ⟨rows, hrows, r0, hr0, bs, hbs, hmem⟩ := runs_calls g.data.tagged h
  obtain ⟨v, hv, hall⟩ := C29_cover_partial td st g.data.trains.keys g.data.stations.1.1
    g.data.tagged g.data.trains.once none d hd x (List.mem_map.2 ⟨_, hbs, rfl⟩)
    (List.mem_map.2 ⟨_, hbs, rfl⟩)
  obtain ⟨hnone, hsome⟩ := hall x2
  cases hgs : Dict.get? v x2 with
  | none => exact absurd ⟨t, b, h⟩ (hnone.1 hgs)
  | some gs =>
    obtain ⟨l, hl, ht, ht'⟩ := (hsome gs hgs).2.2.2.1 t t' b h h'
    refine ⟨v.map fun f => (strKey f.1, f.2.map (·.map intKey)), gs.map (·.map intKey), ?_, ?_,
      l.map intKey, List.mem_map.2 ⟨l, hl, rfl⟩, List.mem_map.2 ⟨t, ht, rfl⟩,
      List.mem_map.2 ⟨t', ht', rfl⟩⟩
    · rw [hJ]
      have := get?_map_key strKey_inj (fun v : Dict String (List (List Int)) =>
        v.map fun f => (strKey f.1, f.2.map (·.map intKey))) d x
      rw [hv] at this
      exact this
    · have := get?_map_key strKey_inj (fun v : List (List Int) => v.map (·.map intKey)) v x2
      rw [hgs] at this
      exact this

theorem Gen.jd_get (g : Gen td st table t1 r ts tt) {t : Int} {x x2 : String} {b : List String}
    (h : Runs td t x x2 b) : ∃ d gs, Dict.get? ts.Jd (.str x) = some d ∧
      Dict.get? d (.str x2) = some gs ∧ ∃ gr ∈ gs, .int t ∈ gr := by
  obtain ⟨d, gs, h1, h2, gr, hg, ht, -⟩ := g.jd_together h h
  exact ⟨d, gs, h1, h2, gr, hg, ht⟩

/-! ## Opposite trains -/

theorem pushPair_nodup {d : Dict (String × String) (List (Int × Int))} (h : (Dict.keys d).Nodup)
    (e : (String × String) × (Int × Int)) : (Dict.keys (pushPair d e)).Nodup := by
  unfold pushPair
  split
  · exact Dict.nodup_keys_set h _ _
  · exact h

theorem pushPairs_nodup (es : List ((String × String) × (Int × Int)))
    {d : Dict (String × String) (List (Int × Int))} (h : (Dict.keys d).Nodup) :
    (Dict.keys (es.foldl pushPair d)).Nodup := by
  induction es generalizing d with
  | nil => exact h
  | cons e es ih => exact ih (pushPair_nodup h e)

theorem Gen.josingle_mem (g : Gen td st table t1 r ts tt) {e : (Val × Val) × List (Val × Val)}
    (he : e ∈ ts.Josingle) {p : Val × Val} (hp : p ∈ e.2) :
    ∃ x x2 t t', e.1 = (.str x, .str x2) ∧ p = (.int t, .int t') ∧ Opposite td x x2 t t' := by
  obtain ⟨o, ho, hJ⟩ := g.Josingle
  have himp : ∀ s ∈ chosen st none, s ∈ Dict.keys st := fun s h => h
  have hk : (Dict.keys o).Nodup := by
    rw [josingle_eq g.data.trains.keys g.data.stations.1.1 himp] at ho
    cases ho
    exact pushPairs_nodup _ (by simp [Dict.keys])
  rw [hJ] at he
  obtain ⟨k, v, hx, rfl⟩ := mem_map_pair (f := fun k : String × String => (strKey k.1, strKey k.2))
    (g := fun l : List (Int × Int) => l.map fun p => (intKey p.1, intKey p.2)) he
  obtain ⟨q, hq, rfl⟩ := List.mem_map.1 hp
  exact ⟨k.1, k.2, q.1, q.2, rfl, rfl, C30_sound_partial td st g.data.trains.keys
    g.data.stations.1.1 g.data.tagged g.data.trains.once none himp g.data.stations.1.1 o ho k.1 k.2 v
    (Dict.get?_of_mem hk hx) q.1 q.2 hq⟩

theorem Opposite.ne (hw : WfTrains td) {x x2 : String} {t t' : Int} (h : Opposite td x x2 t t') :
    t ≠ t' := by
  obtain ⟨b, -, ⟨rows, m, ht, hc, -⟩, rows', m', ht', hc', -⟩ := h
  rintro rfl
  cases ht.unique ht'
  exact consecutive_asymm (hw.table ht).1 hc hc'

/-! ## Tracks -/

theorem Gen.jtrack_mem (g : Gen td st table t1 r ts tt) {e : Val × List (List Val)}
    (he : e ∈ ts.Jtrack) {gr : List Val} (hg : gr ∈ e.2) :
    ∃ x, ∃ l : List Int, e.1 = .str x ∧ gr = l.map intKey ∧ l.Sublist (Dict.keys td) ∧
      ∀ t ∈ l, ∃ rows, TableOf td t rows ∧ Serves rows x := by
  obtain ⟨o, ho, hJ⟩ := g.Jtrack
  have hk : (Dict.keys o).Nodup := by
    unfold jtrack at ho
    simp only at ho
    obtain ⟨d, hd, ho⟩ := bind_ok ho
    cases ho
    rw [show Dict.keys (d.map fun e => (e.1, e.2.filter fun g => decide (g.length ≠ 0))) =
      Dict.keys d from by unfold Dict.keys; simp]
    refine loop_inv hd (fun d => (Dict.keys d).Nodup) (by simp [Dict.keys]) ?_
    intro s _ a b ha hab
    split at hab
    · cases hab; exact ha
    · obtain ⟨js, _, hab⟩ := bind_ok hab
      obtain ⟨z, _, hab⟩ := bind_ok hab
      cases hab
      exact Dict.nodup_keys_set ha _ _
  rw [hJ] at he
  obtain ⟨x, v, hx, rfl⟩ := mem_map_pair (g := fun v : List (List Int) => v.map (·.map intKey)) he
  obtain ⟨l, hl, rfl⟩ := List.mem_map.1 hg
  have h1 : Dict.get? o x = some v := Dict.get?_of_mem hk hx
  obtain ⟨hno, hyes⟩ := jtrack_eq ho x
  have hin : x ∈ chosen st none ∧ x ∉ stationExclusion := by
    by_contra h
    rw [hno (by tauto)] at h1; cases h1
  obtain ⟨bs, hbs⟩ : ∃ bs, (x, bs) ∈ st := by
    obtain ⟨e', he', rfl⟩ := List.mem_map.1 (show x ∈ Dict.keys st from hin.1)
    exact ⟨e'.2, he'⟩
  obtain ⟨gs, hgs, hv⟩ := hyes hin.1 hin.2
  rw [h1] at hv; cases hv
  obtain ⟨bl, -, hbl, -⟩ := trackGroups_ok g.data.trains.keys g.data.stations.1.1 g.data.tagged hbs
  rw [hgs] at hbl; cases hbl
  have hl' : l.Sublist (trainsAt td false bs) := by
    rcases List.mem_cons.1 (List.mem_filter.1 hl).1 with rfl | h
    · exact List.nil_sublist _
    · obtain ⟨b, -, rfl⟩ := List.mem_map.1 h
      exact List.filter_sublist
  refine ⟨x, l, rfl, rfl, hl'.trans (trainsAt_sublist _ _ _), fun t ht => ?_⟩
  obtain ⟨rows, hrows, hat⟩ := (mem_trainsAt g.data.trains.keys).1 (hl'.subset ht)
  obtain ⟨r0, hr0, hr0s⟩ := isAtStation_false.1 hat
  obtain ⟨info, hm⟩ := hrows.mem
  exact ⟨rows, hrows, r0, hr0, (g.data.tagged _ hm r0 hr0 x).2 ⟨bs, hbs, hr0s⟩⟩

/-! ## Switches -/

/-- the train enters the station from an earlier one, or leaves it for a later one -/
def AtPlace (rows : List Row) (x a : String) : Prop :=
  (a = "in" ∧ ∃ x0 mid, Consecutive rows x0 x mid) ∨ (a = "out" ∧ ∃ x1 mid, Consecutive rows x x1 mid)

theorem makeJswitch_sub {ttj ttj' : List Row} {s : String} {j j' : Int}
    {i i' o o' : List Int} {x : Dict Int String}
    (h : x ∈ makeJswitchDict ttj ttj' s j j' i i' o o') : ∃ p p' S S',
      ((p = "in" ∧ S = i) ∨ (p = "out" ∧ S = o)) ∧ ((p' = "in" ∧ S' = i') ∨ (p' = "out" ∧ S' = o')) ∧
      (∃ z, z ∈ S ∧ z ∈ S') ∧ x = [(j, p), (j', p')] := by
  have cut : ∀ {c : Bool} {P Q : Prop} [Decidable P] [Decidable Q] {y : Dict Int String},
      x ∈ (if c = true then if P then [y] else if Q then [y] else [] else []) → c = true ∧ x = y := by
    intro c P Q _ _ y h
    split at h
    · rename_i hc
      split at h
      · exact ⟨hc, List.mem_singleton.1 h⟩
      · split at h
        · exact ⟨hc, List.mem_singleton.1 h⟩
        · cases h
    · cases h
  unfold makeJswitchDict at h
  simp only [List.mem_append] at h
  rcases h with ((h | h) | h) | h
  · obtain ⟨hc, rfl⟩ := cut h
    exact ⟨_, _, _, _, .inl ⟨rfl, rfl⟩, .inl ⟨rfl, rfl⟩, intersects_iff.1 hc, rfl⟩
  · obtain ⟨hc, rfl⟩ := cut h
    exact ⟨_, _, _, _, .inl ⟨rfl, rfl⟩, .inr ⟨rfl, rfl⟩, intersects_iff.1 hc, rfl⟩
  · obtain ⟨hc, rfl⟩ := cut h
    exact ⟨_, _, _, _, .inr ⟨rfl, rfl⟩, .inl ⟨rfl, rfl⟩, intersects_iff.1 hc, rfl⟩
  · obtain ⟨hc, rfl⟩ := cut h
    exact ⟨_, _, _, _, .inr ⟨rfl, rfl⟩, .inr ⟨rfl, rfl⟩, intersects_iff.1 hc, rfl⟩

theorem zIn_place {table : List PathRow} {rows : List Row} (ho : OnceEach rows)
    (hb : BlocksOnce rows) {r : Row} (hr : r ∈ rows) {s : String} (hs : r.station = some s)
    {S : List Int} (h : zIn table s (trainImportantStations rows) [r.path] (rows.map (·.path)) = .ok S)
    (hS : S ≠ []) : ∃ x0 mid, Consecutive rows x0 s mid := by
  obtain ⟨pre, post, rfl⟩ := List.append_of_mem hr
  rw [zIn_eq rfl ho hb hs] at h
  split at h
  · cases h; exact absurd rfl hS
  · rename_i hne
    rcases List.eq_nil_or_concat (pre.filterMap (·.station)) with h0 | ⟨A, x0, hA⟩
    · exact absurd h0 hne
    · refine ⟨x0, (next_iff ho).1 ((next_split ho).2 ⟨A, post.filterMap (·.station), ?_⟩)⟩
      rw [stations_split hs, hA]; simp

theorem zOut_place {table : List PathRow} {rows : List Row} (ho : OnceEach rows)
    (hb : BlocksOnce rows) {r : Row} (hr : r ∈ rows) {s : String} (hs : r.station = some s)
    {S : List Int} (h : zOut table s (trainImportantStations rows) [r.path] (rows.map (·.path)) = .ok S)
    (hS : S ≠ []) : ∃ x1 mid, Consecutive rows s x1 mid := by
  obtain ⟨pre, post, rfl⟩ := List.append_of_mem hr
  rw [zOut_eq rfl ho hb hs] at h
  split at h
  · cases h; exact absurd rfl hS
  · rename_i hne
    obtain ⟨x1, B, hB⟩ := List.exists_cons_of_ne_nil hne
    exact ⟨x1, (next_iff ho).1 ((next_split ho).2 ⟨pre.filterMap (·.station), B, by
      rw [stations_split hs, hB]⟩)⟩

theorem jswitch_keys_nodup {o : Dict String (List (Dict Int String))}
    (h : jswitch td st table none = .ok o) : (Dict.keys o).Nodup := by
  unfold jswitch at h
  simp only at h
  refine loop_inv h (fun d => (Dict.keys d).Nodup) (by simp [Dict.keys]) ?_
  intro s _ a b ha hab
  obtain ⟨js, _, hab⟩ := bind_ok hab
  obtain ⟨z, _, hab⟩ := bind_ok hab
  cases hab
  exact Dict.nodup_keys_set ha _ _

theorem jswitchPair_entry (G : GoodData td st) {x : String} {t t' : Int} {rows rows' : List Row}
    (ht : TableOf td t rows) (ht' : TableOf td t' rows') (hs : Serves rows x) (hs' : Serves rows' x)
    {v : List (Dict Int String)} (h : jswitchPair table st x t t' rows rows' = .ok v)
    {p : Dict Int String} (hp : p ∈ v) :
    ∃ a a', p = [(t, a), (t', a')] ∧ AtPlace rows x a ∧ AtPlace rows' x a' := by
  obtain ⟨info, hm⟩ := ht.mem
  obtain ⟨info', hm'⟩ := ht'.mem
  obtain ⟨r, hr, hrs⟩ := hs
  obtain ⟨r', hr', hrs'⟩ := hs'
  obtain ⟨ho, hb⟩ := G.trains.table ht
  obtain ⟨ho', hb'⟩ := G.trains.table ht'
  unfold jswitchPair at h
  rw [stationBlocks_eq G.stations (G.tagged _ hm) ho hr hrs,
    stationBlocks_eq G.stations (G.tagged _ hm') ho' hr' hrs'] at h
  simp only at h
  obtain ⟨b1, hb1, h⟩ := bind_ok h
  cases hb1
  obtain ⟨b2, hb2, h⟩ := bind_ok h
  cases hb2
  obtain ⟨i, hi, h⟩ := bind_ok h
  obtain ⟨o, hoo, h⟩ := bind_ok h
  obtain ⟨i', hi', h⟩ := bind_ok h
  obtain ⟨o', hoo', h⟩ := bind_ok h
  split at h
  · cases h
    obtain ⟨a, a', S, S', ha, ha', ⟨z, hz, hz'⟩, rfl⟩ := makeJswitch_sub hp
    refine ⟨a, a', rfl, ?_, ?_⟩
    · rcases ha with ⟨rfl, rfl⟩ | ⟨rfl, rfl⟩
      · exact .inl ⟨rfl, zIn_place ho hb hr hrs hi (List.ne_nil_of_mem hz)⟩
      · exact .inr ⟨rfl, zOut_place ho hb hr hrs hoo (List.ne_nil_of_mem hz)⟩
    · rcases ha' with ⟨rfl, rfl⟩ | ⟨rfl, rfl⟩
      · exact .inl ⟨rfl, zIn_place ho' hb' hr' hrs' hi' (List.ne_nil_of_mem hz')⟩
      · exact .inr ⟨rfl, zOut_place ho' hb' hr' hrs' hoo' (List.ne_nil_of_mem hz')⟩
  · cases h; cases hp

theorem Gen.jswitch_mem (g : Gen td st table t1 r ts tt) {e : Val × List (Dict Val String)}
    (he : e ∈ ts.Jswitch) {pair : Dict Val String} (hp : pair ∈ e.2) :
    ∃ x t t' a a' rows rows', e.1 = .str x ∧ pair = [(.int t, a), (.int t', a')] ∧
      [t, t'].Sublist (Dict.keys td) ∧ TableOf td t rows ∧ TableOf td t' rows' ∧
      AtPlace rows x a ∧ AtPlace rows' x a' := by
  obtain ⟨o, ho, hJ⟩ := g.Jswitch
  rw [hJ] at he
  obtain ⟨x, v, hx, rfl⟩ := mem_map_pair (g := fun v : List (Dict Int String) =>
    v.map fun x => x.map fun y => (intKey y.1, y.2)) he
  obtain ⟨l, hl, rfl⟩ := List.mem_map.1 hp
  have h1 : Dict.get? o x = some v := Dict.get?_of_mem (jswitch_keys_nodup ho) hx
  obtain ⟨hno, hyes⟩ := jswitch_station g.data.stations.1.1 ho x
  have hin : x ∈ chosen st none := by
    by_contra h
    rw [hno h] at h1; cases h1
  obtain ⟨bs, v', hbs, hv', hc⟩ := hyes hin
  rw [h1] at hv'; cases hv'
  obtain ⟨q, hq, vq, hvq, hlq⟩ := (mem_collect hc l).1 hl
  obtain ⟨a, ha, hvq⟩ := bind_ok hvq
  obtain ⟨b, hb, hvq⟩ := bind_ok hvq
  have ht : TableOf td q.1 a.2 := ⟨a.1, Dict.at!_ok.1 ha⟩
  have ht' : TableOf td q.2 b.2 := ⟨b.1, Dict.at!_ok.1 hb⟩
  have hsub : [q.1, q.2].Sublist (trainsAt td false bs) := mem_pairs_iff.1 hq
  have serves : ∀ {t rows}, TableOf td t rows → t ∈ trainsAt td false bs → Serves rows x := by
    intro t rows hrows hmem
    obtain ⟨rows', hrows', hat⟩ := (mem_trainsAt g.data.trains.keys).1 hmem
    cases hrows.unique hrows'
    obtain ⟨r0, hr0, hr0s⟩ := isAtStation_false.1 hat
    obtain ⟨info, hm⟩ := hrows.mem
    exact ⟨r0, hr0, (g.data.tagged _ hm r0 hr0 x).2 ⟨bs, hbs, hr0s⟩⟩
  obtain ⟨c, c', rfl, hc, hc'⟩ := jswitchPair_entry g.data ht ht'
    (serves ht (hsub.subset (by simp))) (serves ht' (hsub.subset (by simp))) hvq hlq
  exact ⟨x, q.1, q.2, c, c', a.2, b.2, rfl, rfl, hsub.trans (trainsAt_sublist _ _ _), ht, ht', hc, hc'⟩

/-! ## Names and order of the lists -/

theorem plain_ne {s : String} (h : Plain (.str s)) : Val.str s ≠ oneStation := by
  intro h'
  cases h'
  revert h; decide

theorem GoodData.serves (G : GoodData td st) {t : Int} {rows : List Row} (ht : TableOf td t rows)
    {s : String} (h : Serves rows s) : s ≠ "" ∧ Plain (.str s) := by
  obtain ⟨r, hr, hs⟩ := h
  obtain ⟨bs, hb, -⟩ := G.station ht hr hs
  exact G.names _ hb

theorem Gen.namesOK (g : Gen td st table t1 r ts tt) : NamesOK ts where
  names :=
    { josingle := by
        intro e he
        by_cases h : e.2 = []
        · obtain ⟨o, ho, hJ⟩ := g.Josingle
          rw [hJ] at he
          obtain ⟨k, v, hx, rfl⟩ := mem_map_pair
            (f := fun k : String × String => (strKey k.1, strKey k.2))
            (g := fun l : List (Int × Int) => l.map fun p => (intKey p.1, intKey p.2)) he
          exfalso
          simp only [List.map_eq_nil_iff] at h
          subst h
          have himp : ∀ s ∈ chosen st none, s ∈ Dict.keys st := fun s h => h
          rw [josingle_eq g.data.trains.keys g.data.stations.1.1 himp] at ho
          cases ho
          have key : ∀ (es : List ((String × String) × (Int × Int))) d,
              (∀ e ∈ d, e.2 ≠ []) → ∀ e ∈ es.foldl pushPair d, e.2 ≠ [] := by
            intro es
            induction es with
            | nil => intro d hd; exact hd
            | cons a es ih =>
              intro d hd
              refine ih _ fun e he => ?_
              unfold pushPair at he
              split at he
              · rcases mem_update (d := d) (e := [(a.1, (Dict.get? d a.1).getD [] ++ [a.2])]) he with h | h
                · exact hd e h
                · rw [List.mem_singleton.1 h]; simp
              · exact hd e he
          exact key _ [] (by simp) _ hx rfl
        · obtain ⟨p, hp⟩ := List.exists_mem_of_ne_nil _ h
          obtain ⟨x, x2, t, t', h1, -, b, -, ⟨rows, m, ht, hc, -⟩, -⟩ := g.josingle_mem he hp
          rw [h1]
          refine ⟨plain_ne (g.data.serves ht (consecutive_serves hc).1).2,
            plain_ne (g.data.serves ht (consecutive_serves hc).2).2, fun p hp => ?_⟩
          obtain ⟨-, -, t, t', -, rfl, -⟩ := g.josingle_mem he hp
          exact ⟨by rintro ⟨⟩, by rintro ⟨⟩⟩
      jd := by
        intro e he e2 he2 gr hg j hj
        obtain ⟨x, x2, l, -, -, rfl, -⟩ := g.jd_mem he he2 hg
        obtain ⟨t, -, rfl⟩ := List.mem_map.1 hj
        rintro ⟨⟩
      jtrack := by
        intro e he gr hg j hj
        obtain ⟨x, l, -, rfl, -⟩ := g.jtrack_mem he hg
        obtain ⟨t, -, rfl⟩ := List.mem_map.1 hj
        rintro ⟨⟩
      jswitch := by
        intro e he
        constructor
        · obtain ⟨o, ho, hJ⟩ := g.Jswitch
          rw [hJ] at he
          obtain ⟨x, v, hx, rfl⟩ := mem_map_pair (g := fun v : List (Dict Int String) =>
            v.map fun x => x.map fun y => (intKey y.1, y.2)) he
          obtain ⟨hno, -⟩ := jswitch_station g.data.stations.1.1 ho x
          have hin : x ∈ Dict.keys st := by
            by_contra h
            have := hno h
            rw [Dict.get?_of_mem (jswitch_keys_nodup ho) hx] at this
            cases this
          obtain ⟨e', he', rfl⟩ := List.mem_map.1 hin
          exact plain_ne (g.data.names _ he').2
        · intro pair hp y hy
          obtain ⟨x, t, t', a, a', -, -, -, rfl, -⟩ := g.jswitch_mem he hp
          simp only [List.mem_cons, List.not_mem_nil, or_false] at hy
          rcases hy with rfl | rfl <;> rintro ⟨⟩
      paths := by
        intro e he s hs
        rw [g.paths] at he
        obtain ⟨t, p, hm, rfl⟩ := mem_map_pair (g := fun l : List String => l.map strKey) he
        obtain ⟨e', he', h'⟩ := List.mem_map.1 hm
        cases h'
        obtain ⟨x, hx, rfl⟩ := List.mem_map.1 hs
        exact plain_ne (g.data.serves (TableOf.of_mem g.data.trains.keys he')
          (mem_stations.1 hx)).2
      unone := by rintro ⟨⟩ }
  stations := by
    intro e he
    obtain ⟨o, ho, hJ⟩ := g.Jswitch
    rw [hJ] at he
    obtain ⟨x, v, hx, rfl⟩ := mem_map_pair (g := fun v : List (Dict Int String) =>
      v.map fun x => x.map fun y => (intKey y.1, y.2)) he
    rintro ⟨⟩

theorem sublist_int_ne {l : List Int} (hnd : l.Nodup) {t t' : Int} (h : [t, t'].Sublist l) :
    t ≠ t' := by
  have := hnd.sublist h
  simpa using this

theorem Gen.wellFormed (g : Gen td st table t1 r ts tt) : WellFormed ts where
  jd := by
    intro e he e2 he2 gr hg
    obtain ⟨x, x2, l, -, -, rfl, hl, -⟩ := g.jd_mem he he2 hg
    exact (g.data.trains.keys.sublist hl).map intKey_inj
  jtrack := by
    intro e he gr hg
    obtain ⟨x, l, -, rfl, hl, -⟩ := g.jtrack_mem he hg
    exact (g.data.trains.keys.sublist hl).map intKey_inj
  josingle := by
    intro e he p hp
    obtain ⟨x, x2, t, t', -, rfl, ho⟩ := g.josingle_mem he hp
    intro h
    cases h
    exact ho.ne g.data.trains rfl
  jswitch := by
    intro e he pair hp
    obtain ⟨x, t, t', a, a', rows, rows', -, rfl, hs, -, -, ha, ha'⟩ := g.jswitch_mem he hp
    constructor
    · have := sublist_int_ne g.data.trains.keys hs
      simp only [Dict.keys, List.map_cons, List.map_nil, List.nodup_cons, List.mem_cons,
        List.not_mem_nil, or_false, not_false_eq_true, List.nodup_nil, and_true]
      rintro ⟨⟩
      exact this rfl
    · intro y hy
      simp only [List.mem_cons, List.not_mem_nil, or_false] at hy
      rcases hy with rfl | rfl
      · exact ha.imp And.left And.left
      · exact ha'.imp And.left And.left

theorem map_sublist_int {l : List Int} {a b : Int} (h : [Val.int a, Val.int b].Sublist (l.map intKey)) :
    [a, b].Sublist l := by
  obtain ⟨l', hl', h'⟩ := List.sublist_map_iff.1 h
  rcases l' with _ | ⟨x, _ | ⟨y, _ | ⟨z, l'⟩⟩⟩
  · cases h'
  · cases h'
  · cases h'
    exact hl'
  · cases h'

theorem sublist_antisymm {l : List Int} (hnd : l.Nodup) {a b : Int} (h : [a, b].Sublist l)
    (h' : [b, a].Sublist l) : False := by
  obtain ⟨l1, l2, rfl, h1, h2⟩ := List.cons_sublist_iff.1 h
  have hb : b ∈ l2 := List.singleton_sublist.1 h2
  obtain ⟨m1, m2, e, hm1, hm2⟩ := List.cons_sublist_iff.1 h'
  have ha2 : a ∈ m2 := List.singleton_sublist.1 hm2
  rw [List.nodup_append] at hnd
  have key : ∀ {l1 l2 m1 m2 : List Int}, l1 ++ l2 = m1 ++ m2 → (l1 ++ l2).Nodup → a ∈ l1 → b ∈ l2 →
      b ∈ m1 → a ∈ m2 → False := by
    intro l1
    induction l1 with
    | nil => intro l2 m1 m2 _ _ ha _ _ _; cases ha
    | cons c l1 ih =>
      intro l2 m1 m2 e hnd ha hb hbm ham
      cases m1 with
      | nil => cases hbm
      | cons c' m1 =>
        simp only [List.cons_append, List.cons.injEq] at e
        obtain ⟨rfl, e⟩ := e
        rw [List.cons_append, List.nodup_cons] at hnd
        have hac : a ≠ c := by
          rintro rfl
          rw [e] at hnd
          exact hnd.1 (List.mem_append_right _ ham)
        have hbc : b ≠ c := by
          rintro rfl
          exact hnd.1 (List.mem_append_right _ hb)
        exact ih e hnd.2 (by simpa [hac] using ha) hb (by simpa [hbc] using hbm) ham
  exact key e (List.nodup_append.2 hnd) h1 hb hm1 ha2

/-- All lists follow the order of the trains in the table. -/
theorem Gen.listed (g : Gen td st table t1 r ts tt) {t t' : Int}
    (h : [t, t'].Sublist (Dict.keys td)) (x : Val) : ListedInOrder ts (.int t) (.int t') x where
  jd := by
    intro e he _ e2 he2 gr hg hs
    obtain ⟨-, -, l, -, -, rfl, hl, -⟩ := g.jd_mem he he2 hg
    exact sublist_antisymm g.data.trains.keys h ((map_sublist_int hs).trans hl)
  jtrack := by
    intro e he _ gr hg hs
    obtain ⟨-, l, -, rfl, hl, -⟩ := g.jtrack_mem he hg
    exact sublist_antisymm g.data.trains.keys h ((map_sublist_int hs).trans hl)
  jswitch := by
    intro e he pair hp hk
    obtain ⟨_, a, b, _, _, _, _, _, hpe, hs, _⟩ := g.jswitch_mem he hp
    rw [hpe] at hk
    cases hk
    exact sublist_antisymm g.data.trains.keys h hs

end Verif
