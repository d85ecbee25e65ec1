import Verif.Proofs.GenBuild
import Verif.Proofs.ConNames

/-!
# Generated input: the names of the constraints are distinct
-/

namespace Verif

variable {td : Trains} {st : Stations} {table : List PathRow} {t1 : String} {r : Int}
  {ts : TrainSets} {tt : Timetable} {dv : DelayVars} {y : OrderVars} {dmax : ℚ}

/-! ## Lists -/

theorem keys_pairwise {K V : Type} {d : Dict K V} (h : (Dict.keys d).Nodup) :
    d.Pairwise fun e e' => e.1 ≠ e'.1 := List.pairwise_map.1 h

theorem mem_pairs_left {α : Type} {x : α × α} {xs : List α} (h : x ∈ pairs xs) :
    x.1 ∈ xs ∧ x.2 ∈ xs := by
  have := mem_pairs_iff.1 (show (x.1, x.2) ∈ pairs xs from h)
  exact ⟨this.subset (by simp), this.subset (by simp)⟩

theorem pairs_pairwise {α : Type} {xs : List α} (h : xs.Nodup) :
    (pairs xs).Pairwise fun p q => p ≠ q ∧ p ≠ (q.2, q.1) := by
  induction xs with
  | nil => exact List.Pairwise.nil
  | cons x xs ih =>
    obtain ⟨hx, hnd⟩ := List.nodup_cons.1 h
    rw [pairs, List.pairwise_append]
    refine ⟨?_, ih hnd, ?_⟩
    · rw [List.pairwise_map]
      refine hnd.imp_of_mem ?_
      intro a b ha hb hab
      refine ⟨fun he => hab (Prod.mk.inj he).2, fun he => ?_⟩
      obtain ⟨h1, -⟩ := Prod.mk.inj he
      exact hx (by rw [h1]; exact hb)
    · intro p hp q hq
      obtain ⟨z, -, rfl⟩ := List.mem_map.1 hp
      obtain ⟨h1, h2⟩ := mem_pairs_left hq
      refine ⟨fun he => hx (by rw [show x = q.1 from congrArg Prod.fst he]; exact h1), fun he => ?_⟩
      exact hx (by rw [show x = q.2 from congrArg Prod.fst he]; exact h2)

theorem flatten_pairwise {α : Type} {gs : List (List α)} (h : (flatten gs).Nodup) :
    (∀ g ∈ gs, g.Nodup) ∧ gs.Pairwise fun g g' => ∀ x ∈ g, x ∉ g' := by
  unfold flatten at h
  rw [List.nodup_flatMap] at h
  refine ⟨h.1, h.2.imp fun {a b} hab x hx hx' => hab hx hx'⟩

theorem flatten_map {gs : List (List Int)} (h : (flatten gs).Nodup) :
    (flatten (gs.map fun g => g.map intKey)).Nodup := by
  have : flatten (gs.map fun g => g.map intKey) = (flatten gs).map intKey := by
    unfold flatten
    rw [List.map_flatMap, List.flatMap_map]
  rw [this]
  exact h.map intKey_inj

/-! ## One constraint -/

theorem labels_span (s sp j jp : Val) :
    Labels (minimalSpanConstrain s sp j jp tt dv y ts dmax) (· = .span jp j s sp) := by
  unfold minimalSpanConstrain
  refine labels_bind fun _ _ => labels_bind fun _ _ => labels_bind fun _ _ => ?_
  simp only
  split
  · exact labels_bind fun _ _ => labels_bind fun _ _ => labels_bind fun _ _ => labels_one rfl
  · exact labels_nil _

theorem labels_single (s sp j jp : Val) :
    Labels (singleLineConstrain s sp j jp tt dv y ts dmax) (· = .single j jp s sp) := by
  unfold singleLineConstrain
  refine labels_bind fun _ _ => labels_bind fun _ _ => labels_bind fun _ _ => ?_
  simp only
  split
  · exact labels_bind fun _ _ => labels_bind fun _ _ => labels_bind fun _ _ => labels_one rfl
  · exact labels_nil _

theorem labels_stay (j s : Val) :
    Labels (minimalStayConstrain j s tt dv ts) (· = .stay j s) := by
  unfold minimalStayConstrain
  refine labels_bind fun _ _ => labels_bind fun _ _ => ?_
  split
  · refine labels_bind fun _ _ => ?_
    split
    · exact labels_bind fun _ _ => labels_bind fun _ _ => labels_bind fun _ _ =>
        labels_bind fun _ _ => labels_bind fun _ _ => labels_one rfl
    · exact labels_nil _
  · exact labels_nil _

theorem labels_circ (s j jp : Val) :
    Labels (circBody s j jp tt dv ts dmax) (· = .circ j jp s) := by
  unfold circBody
  refine labels_bind fun _ _ => labels_bind fun _ _ => labels_bind fun _ _ =>
    labels_bind fun _ _ => labels_bind fun _ _ => labels_bind fun _ _ => ?_
  simp only
  split
  · exact labels_bind fun _ _ => labels_bind fun _ _ => labels_one rfl
  · exact labels_nil _

theorem labels_switch (s jp sp jpp spp : Val) :
    Labels (switchOcc s jp sp jpp spp tt dv y ts dmax) (· = .switch jp jpp s sp spp) := by
  unfold switchOcc
  refine labels_bind fun _ _ => labels_bind fun _ _ => labels_bind fun _ _ =>
    labels_bind fun _ _ => labels_bind fun _ _ => ?_
  simp only
  split
  · exact labels_bind fun _ _ => labels_bind fun _ _ => labels_bind fun _ _ => labels_one rfl
  · exact labels_nil _

theorem labels_keep (s j jp : Val) : Labels (keepTrainsOrder s j jp y ts)
    (fun i => ∃ sp, PrevOf ts j s sp ∧ sp ∈ Dict.keys ts.Jd ∧ i = .order j jp s sp) := by
  unfold keepTrainsOrder
  refine labels_bind fun path hpath => labels_bind fun sp hsp => ?_
  have hprev := prevOf_iff.2 ⟨path, hpath, hsp⟩
  split
  · exact labels_nil _
  · rename_i d hd
    have hk : sp ∈ Dict.keys ts.Jd := (Dict.get?_isSome _ _).1 (by rw [hd]; rfl)
    split
    · refine labels_bind fun _ _ => ?_
      split
      · refine labels_bind fun _ _ => ?_
        split
        · refine labels_bind fun _ _ => labels_bind fun _ _ => labels_bind fun _ _ => ?_
          split
          · exact (labels_one (i := .order j jp s sp) rfl).mono fun i hi => ⟨sp, hprev, hk, hi⟩
          · exact labels_nil _
        · split
          · exact labels_bind fun _ _ => labels_bind fun _ _ =>
              (labels_one (i := .order j jp s sp) rfl).mono fun i hi => ⟨sp, hprev, hk, hi⟩
          · exact labels_nil _
      · exact labels_nil _
    · exact labels_nil _

theorem labels_order {s j jp : Val} (h : subsequentTrainAtJround ts j s = .none) :
    Labels (trainsOrderAtS s j jp tt dv y ts dmax) (· = .track j jp s) := by
  unfold trainsOrderAtS
  simp only [h, ne_eq, not_true_eq_false, if_false]
  refine labels_bind fun _ _ => ?_
  refine labels_bind fun _ _ => labels_bind fun _ _ => ?_
  split
  · exact labels_bind fun _ _ => labels_bind fun _ _ => labels_bind fun _ _ => labels_one rfl
  · exact labels_nil _

/-! ## Assumptions -/

/-- Train numbers are not negative; station names have no characters that PuLP replaces, and no
station is called `p` (the names of constraints on station tracks end in `_p`). -/
structure NamesClear (td : Trains) (st : Stations) : Prop where
  trains : ∀ t ∈ Dict.keys td, 0 ≤ t
  stations : ∀ e ∈ st, Legal e.1 ∧ e.1 ≠ "p"

/-- Of two trains running from one station to the next, neither runs over some of the blocks of the
other one only. -/
def LinesClear (td : Trains) : Prop :=
  ∀ s s' t t' b b', Runs td t s s' b → Runs td t' s s' b' → (∀ x ∈ b, x ∈ b') → b = b'

theorem NamesClear.train (hn : NamesClear td st) {t : Int} {rows : List Row}
    (ht : TableOf td t rows) : IsTrain (.int t) := by
  obtain ⟨info, h⟩ := ht.mem
  exact ⟨t, rfl, hn.trains t (List.mem_map.2 ⟨_, h, rfl⟩)⟩

theorem NamesClear.key (hn : NamesClear td st) {t : Int} (ht : t ∈ Dict.keys td) :
    IsTrain (.int t) := ⟨t, rfl, hn.trains t ht⟩

theorem NamesClear.station (hn : NamesClear td st) (G : GoodData td st) {t : Int} {rows : List Row}
    (ht : TableOf td t rows) {x : String} (hx : Serves rows x) : IsStation (.str x) := by
  obtain ⟨row, hrow, hs⟩ := hx
  obtain ⟨bs, hbs, -⟩ := G.station ht hrow hs
  obtain ⟨h1, h2⟩ := hn.stations _ hbs
  exact ⟨x, rfl, (G.names _ hbs).2, h1, h2⟩

theorem Runs.clear (hn : NamesClear td st) (G : GoodData td st) {t : Int} {x x2 : String}
    {b : List String} (h : Runs td t x x2 b) :
    IsTrain (.int t) ∧ IsStation (.str x) ∧ IsStation (.str x2) := by
  obtain ⟨rows, mid, ht, hc, -⟩ := h
  obtain ⟨h1, h2⟩ := consecutive_serves hc
  exact ⟨hn.train ht, hn.station G ht h1, hn.station G ht h2⟩

/-! ## Following trains -/

theorem Gen.jd_once (g : Gen td st table t1 r ts tt) (hl : LinesClear td) :
    (Dict.keys ts.Jd).Nodup ∧ ∀ e ∈ ts.Jd, (Dict.keys e.2).Nodup ∧ ∀ e2 ∈ e.2,
      (flatten e2.2).Nodup := by
  obtain ⟨d, hd, hJ⟩ := g.Jd
  obtain ⟨hk1, hk2⟩ := jd_keys_nodup hd
  rw [hJ]
  refine ⟨by rw [keys_map_key]; exact hk1.map strKey_inj, ?_⟩
  intro e he
  obtain ⟨x, v, hx, rfl⟩ := mem_map_pair (g := fun v : Dict String (List (List Int)) =>
    v.map fun f => (strKey f.1, f.2.map (·.map intKey))) he
  refine ⟨by rw [keys_map_key]; exact (hk2 _ hx).map strKey_inj, ?_⟩
  intro e2 he2
  obtain ⟨x2, gs, hx2, rfl⟩ := mem_map_pair (g := fun v : List (List Int) =>
    v.map (·.map intKey)) he2
  have h1 : Dict.get? d x = some v := Dict.get?_of_mem hk1 hx
  have h2 : Dict.get? v x2 = some gs := Dict.get?_of_mem (hk2 _ hx) hx2
  by_cases hxs : x ∈ chosen st none
  · obtain ⟨bs, hbs⟩ : ∃ bs, (x, bs) ∈ st := by
      have : x ∈ Dict.keys st := hxs
      obtain ⟨⟨a, b⟩, h, rfl⟩ := List.mem_map.1 this
      exact ⟨b, h⟩
    obtain ⟨v', hv', hinv⟩ := (jd_station g.data.trains.keys g.data.stations.1.1 hd x).2 bs hbs hxs
    rw [h1] at hv'; cases hv'
    apply flatten_map
    apply hinv.once x2 gs h2
    intro t t' hn hn' hsub
    obtain ⟨b, hb⟩ := (nextOf_iff g.data.trains.once).1 hn
    obtain ⟨b', hb'⟩ := (nextOf_iff g.data.trains.once).1 hn'
    rw [betweenOf_eq g.data.trains.once hb, betweenOf_eq g.data.trains.once hb'] at hsub ⊢
    exact hl x x2 t t' b b' hb hb' hsub
  · rw [(jd_station g.data.trains.keys g.data.stations.1.1 hd x).1 hxs] at h1
    cases h1

theorem Gen.labels_minimalSpan (g : Gen td st table t1 r ts tt) (hn : NamesClear td st)
    (hl : LinesClear td) : Labels (Verif.minimalSpan tt dv y ts dmax)
      (fun i => i.cls = "minimal_span" ∧ i.Good) := by
  obtain ⟨hk, hrest⟩ := g.jd_once hl
  unfold Verif.minimalSpan
  have key : Labels (collect ts.Jd fun e => collect e.2 fun e2 => collect e2.2 fun js =>
      collect (pairs js) fun p => do
        let a ← minimalSpanConstrain e.1 e2.1 p.1 p.2 tt dv y ts dmax
        let b ← minimalSpanConstrain e.1 e2.1 p.2 p.1 tt dv y ts dmax
        .ok (a ++ b)) (fun i => ∃ e ∈ ts.Jd, ∃ e2 ∈ e.2, ∃ js ∈ e2.2, ∃ p ∈ pairs js,
          i = .span p.2 p.1 e.1 e2.1 ∨ i = .span p.1 p.2 e.1 e2.1) := by
    refine labels_collect (fun e he => labels_collect (fun e2 he2 => labels_collect (fun js hjs =>
      labels_collect (fun p hp => labels_append (labels_span _ _ _ _) (labels_span _ _ _ _) ?_)
        ?_) ?_) ?_) ?_
    · rintro i rfl h2
      injection h2 with h2 _ _ _
      exact pairs_ne ((flatten_pairwise ((hrest e he).2 e2 he2)).1 js hjs)
        (show (p.1, p.2) ∈ pairs js from hp) h2.symm
    · refine (pairs_pairwise ((flatten_pairwise ((hrest e he).2 e2 he2)).1 js hjs)).imp ?_
      rintro ⟨a, b⟩ ⟨a', b'⟩ ⟨h1, h2⟩ i (rfl | rfl) (h3 | h3)
      · injection h3 with h3 h4; exact h1 (Prod.ext h4 h3)
      · injection h3 with h3 h4; exact h2 (Prod.ext h4 h3)
      · injection h3 with h3 h4; exact h2 (Prod.ext h3 h4)
      · injection h3 with h3 h4; exact h1 (Prod.ext h3 h4)
    · refine ((flatten_pairwise ((hrest e he).2 e2 he2)).2).imp ?_
      rintro g1 g2 hd i ⟨p, hp, hi⟩ ⟨q, hq, hi'⟩
      obtain ⟨h1, h2⟩ := mem_pairs_left hp
      obtain ⟨h3, h4⟩ := mem_pairs_left hq
      rcases hi with rfl | rfl <;> rcases hi' with h | h <;> injection h with h5 h6 _ _
      · exact hd _ h1 (by rw [h6]; exact h3)
      · exact hd _ h1 (by rw [h6]; exact h4)
      · exact hd _ h1 (by rw [h5]; exact h4)
      · exact hd _ h1 (by rw [h5]; exact h3)
    · refine (keys_pairwise (hrest e he).1).imp ?_
      rintro e1 e2 hd i ⟨_, _, p, hp, hi⟩ ⟨_, _, q, hq, hi'⟩
      rcases hi with rfl | rfl <;> rcases hi' with h | h <;> injection h with _ _ _ h7 <;>
        exact hd h7
    · refine (keys_pairwise hk).imp ?_
      rintro e1 e2 hd i ⟨_, _, _, _, p, hp, hi⟩ ⟨_, _, _, _, q, hq, hi'⟩
      rcases hi with rfl | rfl <;> rcases hi' with h | h <;> injection h with _ _ h7 _ <;>
        exact hd h7
  refine key.mono ?_
  rintro i ⟨e, he, e2, he2, js, hjs, p, hp, hi⟩
  obtain ⟨x, x2, l, hx, hx2, rfl, -, hruns⟩ := g.jd_mem he he2 hjs
  obtain ⟨h1, h2⟩ := mem_pairs_left hp
  obtain ⟨a, ha, hae⟩ := List.mem_map.1 h1
  obtain ⟨b, hb, hbe⟩ := List.mem_map.1 h2
  obtain ⟨bl, hbl⟩ := hruns a ha
  obtain ⟨bl', hbl'⟩ := hruns b hb
  obtain ⟨k1, k2, k3⟩ := hbl.clear hn g.data
  obtain ⟨k1', -, -⟩ := hbl'.clear hn g.data
  rw [hx, hx2, ← hae, ← hbe] at hi
  rcases hi with rfl | rfl
  · exact ⟨rfl, k1', k1, k2, k3⟩
  · exact ⟨rfl, k1, k1', k2, k3⟩

/-! ## Stays -/

theorem Gen.labels_minimalStay (g : Gen td st table t1 r ts tt) (hn : NamesClear td st) :
    Labels (Verif.minimalStay tt dv ts) (fun i => i.cls = "minimal_stay" ∧ i.Good) := by
  unfold Verif.minimalStay
  have key : Labels (collect ts.J fun j => do
      let path ← Dict.at! ts.paths j
      collect path fun s => minimalStayConstrain j s tt dv ts)
      (fun i => ∃ j ∈ ts.J, ∃ path, Dict.at! ts.paths j = .ok path ∧ ∃ s ∈ path, i = .stay j s) := by
    refine labels_collect (fun j hj => labels_bind fun path hpath => ?_) ?_
    · refine (labels_collect (Q := fun s i => i = .stay j s) (fun s _ => labels_stay _ _) ?_).mono
        fun i ⟨s, hs, hi⟩ => ⟨path, hpath, s, hs, hi⟩
      obtain ⟨t, rows, -, ht, rfl⟩ := g.path.1 (Dict.at!_ok.1 hpath)
      have hnd : ((trainImportantStations rows).map strKey).Nodup :=
        List.Nodup.map strKey_inj (g.data.trains.table ht).1
      refine hnd.imp ?_
      rintro a b hab i rfl h
      injection h with _ h
      exact hab h
    · have hnd : ts.J.Nodup := by
        rw [g.J]; exact g.data.trains.keys.map intKey_inj
      refine hnd.imp ?_
      rintro a b hab i ⟨_, _, _, _, rfl⟩ ⟨_, _, _, _, h⟩
      injection h with h _
      exact hab h
  refine key.mono ?_
  rintro i ⟨j, -, path, hpath, s, hs, rfl⟩
  obtain ⟨t, rows, rfl, ht, rfl⟩ := g.path.1 (Dict.at!_ok.1 hpath)
  obtain ⟨x, hx, rfl⟩ := List.mem_map.1 hs
  exact ⟨rfl, hn.train ht, hn.station g.data ht (mem_stations.1 hx)⟩

/-! ## Opposite trains -/

theorem listed_push (es : List ((String × String) × (Int × Int))) (k : String × String) :
    ∀ d, (listed (es.foldl pushPair d) k).Sublist
      (listed d k ++ (es.filter fun e => decide (e.1 = k)).map Prod.snd) := by
  induction es with
  | nil => intro d; simp
  | cons e es ih =>
    intro d
    rw [List.foldl_cons]
    refine (ih _).trans ?_
    unfold pushPair
    by_cases hk : e.1 = k
    · rw [List.filter_cons_of_pos (by simpa using hk), List.map_cons]
      split
      · rw [listed_set, if_pos hk.symm, ← hk]
        simp [listed]
      · rw [List.append_sublist_append_left]
        exact List.sublist_cons_self _ _
    · rw [List.filter_cons_of_neg (by simpa using hk)]
      split
      · rw [listed_set, if_neg (fun h => hk h.symm)]
      · exact List.Sublist.refl _

theorem singlePairs_nodup (ch : List String) (s : String) {js : List Int} (h : js.Nodup) :
    (singlePairs td ch s js).Nodup := by
  unfold singlePairs
  rw [List.nodup_flatMap]
  refine ⟨fun j _ => ?_, h.imp ?_⟩
  · split
    · exact List.nodup_nil
    · split
      · rw [List.nodup_flatMap]
        refine ⟨fun j' _ => by split <;> simp, h.imp ?_⟩
        intro a b hab
        simp only [Function.onFun]
        intro z hz hz'
        split at hz <;> split at hz' <;> simp_all
      · exact List.nodup_nil
  · intro a b hab
    simp only [Function.onFun]
    intro z hz hz'
    apply hab
    have key : ∀ j, (z ∈ match nextOf td s j with
        | .none => []
        | some s' => if s' ∈ ch then js.flatMap fun j' =>
            if singleOk td s s' j j' then [((s, s'), (j, j'))] else []
          else []) → z.2.1 = j := by
      intro j hz
      split at hz
      · simp at hz
      · split at hz
        · obtain ⟨j', -, hj'⟩ := List.mem_flatMap.1 hz
          split at hj'
          · simp only [List.mem_singleton] at hj'; subst hj'; rfl
          · simp at hj'
        · simp at hz
    rw [← key a hz, ← key b hz']

theorem before_total {l : List String} (hl : l.Nodup) {a b : String} (ha : a ∈ l) (hb : b ∈ l)
    (hab : a ≠ b) : Before l a b ∨ Before l b a := by
  induction l with
  | nil => cases ha
  | cons x l ih =>
    obtain ⟨-, hnd⟩ := List.nodup_cons.1 hl
    rcases List.mem_cons.1 ha with rfl | ha'
    · rcases List.mem_cons.1 hb with rfl | hb'
      · exact absurd rfl hab
      · obtain ⟨l1, l2, rfl⟩ := List.append_of_mem hb'
        exact .inl ⟨[], l1, l2, rfl⟩
    · rcases List.mem_cons.1 hb with rfl | hb'
      · obtain ⟨l1, l2, rfl⟩ := List.append_of_mem ha'
        exact .inr ⟨[], l1, l2, rfl⟩
      · rcases ih hnd ha' hb' with ⟨l1, l2, l3, rfl⟩ | ⟨l1, l2, l3, rfl⟩
        · exact .inl ⟨x :: l1, l2, l3, rfl⟩
        · exact .inr ⟨x :: l1, l2, l3, rfl⟩

theorem Opposite.stations_ne (hw : WfTrains td) {x x2 : String} {t t' : Int}
    (h : Opposite td x x2 t t') : x ≠ x2 := by
  obtain ⟨b, -, ⟨rows, m, ht, hc, -⟩, -⟩ := h
  exact consecutive_ne (hw.table ht).1 hc

theorem Gen.josingle_once (g : Gen td st table t1 r ts tt) :
    (Dict.keys ts.Josingle).Nodup ∧ (∀ e ∈ ts.Josingle, e.2.Nodup) ∧
    ∀ e ∈ ts.Josingle, ∀ e' ∈ ts.Josingle, ∀ p ∈ e.2, ∀ p' ∈ e'.2, e.1 ≠ (e'.1.2, e'.1.1) := by
  obtain ⟨o, ho, hJ⟩ := g.Josingle
  have himp : ∀ s ∈ chosen st none, s ∈ Dict.keys st := fun s h => h
  obtain ⟨o', ho', hcomp⟩ := C30_computed td st g.data.trains.keys g.data.stations.1.1
    g.data.tagged g.data.trains.once none himp g.data.stations.1.1
  rw [ho] at ho'; cases ho'
  rw [josingle_eq g.data.trains.keys g.data.stations.1.1 himp] at ho
  cases ho
  have hk := pushPairs_nodup ((chosen st none).flatMap fun s =>
      singlePairs td (chosen st none) s
        (trainsAt td true ((Dict.get? st s).getD []))) (d := []) (by simp [Dict.keys])
  have hkey : Function.Injective fun k : String × String => (strKey k.1, strKey k.2) := by
    rintro ⟨a, b⟩ ⟨a', b'⟩ h
    obtain ⟨h1, h2⟩ := Prod.mk.inj h
    exact Prod.ext (strKey_inj h1) (strKey_inj h2)
  rw [hJ]
  refine ⟨?_, ?_, ?_⟩
  · rw [keys_map_key (fun k : String × String => (strKey k.1, strKey k.2))]
    exact hk.map hkey
  · intro e he
    obtain ⟨k, v, hx, rfl⟩ := mem_map_pair (f := fun k : String × String => (strKey k.1, strKey k.2))
      (g := fun l : List (Int × Int) => l.map fun p => (intKey p.1, intKey p.2)) he
    have hget := Dict.get?_of_mem hk hx
    have hl := listed_push ((chosen st none).flatMap fun s =>
      singlePairs td (chosen st none) s (trainsAt td true ((Dict.get? st s).getD []))) k []
    unfold Verif.listed at hl
    rw [hget] at hl
    refine List.Nodup.map ?_ (hl.nodup ?_)
    · rintro ⟨a, b⟩ ⟨a', b'⟩ h
      obtain ⟨h1, h2⟩ := Prod.mk.inj h
      exact Prod.ext (intKey_inj h1) (intKey_inj h2)
    · have h0 : ((Dict.get? ([] : Dict (String × String) (List (Int × Int))) k).getD []) = [] := rfl
      rw [h0, List.nil_append]
      refine List.Nodup.map_on ?_ (List.Nodup.filter _ ?_)
      · intro x hx y hy hxy
        have h1 := (List.mem_filter.1 hx).2
        have h2 := (List.mem_filter.1 hy).2
        simp only [decide_eq_true_eq] at h1 h2
        exact Prod.ext (h1.trans h2.symm) hxy
      · rw [List.nodup_flatMap]
        refine ⟨fun s _ => singlePairs_nodup _ _
          ((trainsAt_sublist td true _).nodup g.data.trains.keys), ?_⟩
        have hnd : (chosen st none).Nodup := g.data.stations.1.1
        refine hnd.imp ?_
        intro a b hab
        simp only [Function.onFun]
        rintro ⟨k, p⟩ hz hz'
        exact hab ((mem_singlePairs.1 hz).1.symm.trans (mem_singlePairs.1 hz').1)
  · intro e he e' he' p hp p' hp' hee
    obtain ⟨k, v, hx, rfl⟩ := mem_map_pair (f := fun k : String × String => (strKey k.1, strKey k.2))
      (g := fun l : List (Int × Int) => l.map fun p => (intKey p.1, intKey p.2)) he
    obtain ⟨k', v', hx', rfl⟩ := mem_map_pair
      (f := fun k : String × String => (strKey k.1, strKey k.2))
      (g := fun l : List (Int × Int) => l.map fun p => (intKey p.1, intKey p.2)) he'
    obtain ⟨q, hq, -⟩ := List.mem_map.1 hp
    obtain ⟨q', hq', -⟩ := List.mem_map.1 hp'
    obtain ⟨h1, h2⟩ := Prod.mk.inj hee
    have e1 : k.1 = k'.2 := strKey_inj h1
    have e2 : k.2 = k'.1 := strKey_inj h2
    obtain ⟨c1, c2, c3, c4, c5⟩ := (hcomp k.1 k.2 q.1 q.2).1 ⟨v, Dict.get?_of_mem hk hx, hq⟩
    obtain ⟨d1, d2, d3, d4, d5⟩ := (hcomp k'.1 k'.2 q'.1 q'.2).1 ⟨v', Dict.get?_of_mem hk hx', hq'⟩
    simp only [← e1, ← e2] at d1 d2 d3 d4 d5
    rcases before_total g.data.stations.1.1 c1 c2 (c3.stations_ne g.data.trains) with hb | hb
    · exact d5 ⟨hb, _, _, c3, c4⟩
    · exact c5 ⟨hb, _, _, d3, d4⟩

theorem Gen.labels_singleLine (g : Gen td st table t1 r ts tt) (hn : NamesClear td st) :
    Labels (Verif.singleLine tt dv y ts dmax) (fun i => i.cls = "single_line" ∧ i.Good) := by
  obtain ⟨hk, hnd, hrev⟩ := g.josingle_once
  unfold Verif.singleLine
  have key : Labels (collect ts.Josingle fun e => collect e.2 fun p =>
      if notTheSameRollingStock p.1 p.2 ts then do
        let a ← singleLineConstrain e.1.1 e.1.2 p.1 p.2 tt dv y ts dmax
        let b ← singleLineConstrain e.1.2 e.1.1 p.2 p.1 tt dv y ts dmax
        .ok (a ++ b)
      else .ok [])
      (fun i => ∃ e ∈ ts.Josingle, ∃ p ∈ e.2, i = .single p.1 p.2 e.1.1 e.1.2 ∨
        i = .single p.2 p.1 e.1.2 e.1.1) := by
    have hself : ∀ e ∈ ts.Josingle, ∀ p ∈ e.2, e.1.1 ≠ e.1.2 := by
      intro e he p hp h
      exact hrev e he e he p hp p hp (Prod.ext h h.symm)
    refine labels_collect (fun e he => labels_collect (fun p hp => ?_) ?_) ?_
    · split
      · refine labels_append (labels_single _ _ _ _) (labels_single _ _ _ _) ?_
        rintro i rfl h2
        injection h2 with _ _ h _
        exact hself e he p hp h
      · exact labels_nil _
    · refine (hnd e he).imp_of_mem ?_
      rintro p q hp hq hpq i (rfl | rfl) (h | h) <;> injection h with h1 h2 h3 h4
      · exact hpq (Prod.ext h1 h2)
      · exact hself e he p hp h3
      · exact hself e he p hp h4
      · exact hpq (Prod.ext h2 h1)
    · refine (keys_pairwise hk).imp_of_mem ?_
      rintro e e' he he' hd i ⟨p, hp, hi⟩ ⟨q, hq, hi'⟩
      rcases hi with rfl | rfl <;> rcases hi' with h | h <;> injection h with h1 h2 h3 h4
      · exact hd (Prod.ext h3 h4)
      · exact hrev e he e' he' p hp q hq (Prod.ext h3 h4)
      · exact hrev e he e' he' p hp q hq (Prod.ext h4 h3)
      · exact hd (Prod.ext h4 h3)
  refine key.mono ?_
  rintro i ⟨e, he, p, hp, hi⟩
  obtain ⟨x, x2, t, t', hx, rfl, b, -, hr, hr'⟩ := g.josingle_mem he hp
  obtain ⟨k1, k2, k3⟩ := hr.clear hn g.data
  obtain ⟨k1', -, -⟩ := hr'.clear hn g.data
  rw [hx] at hi
  rcases hi with rfl | rfl
  · exact ⟨rfl, k1, k1', k2, k3⟩
  · exact ⟨rfl, k1', k1, k3, k2⟩

/-! ## Station tracks -/

theorem jtrack_keys {o : Dict String (List (List Int))} (ho : jtrack td st none = .ok o) :
    (Dict.keys o).Nodup := by
  unfold jtrack at ho
  simp only at ho
  obtain ⟨d, hd, ho⟩ := bind_ok ho
  cases ho
  rw [show Dict.keys (d.map fun e => (e.1, e.2.filter fun g => decide (g.length ≠ 0))) =
    Dict.keys d from by unfold Dict.keys; simp]
  refine loop_inv hd (fun d => (Dict.keys d).Nodup) (by simp [Dict.keys]) ?_
  intro s _ a b ha hab
  split at hab
  · cases hab; exact ha
  · obtain ⟨js, _, hab⟩ := bind_ok hab
    obtain ⟨z, _, hab⟩ := bind_ok hab
    cases hab
    exact Dict.nodup_keys_set ha _ _

theorem Gen.jtrack_once (g : Gen td st table t1 r ts tt) :
    (Dict.keys ts.Jtrack).Nodup ∧ ∀ e ∈ ts.Jtrack, (flatten e.2).Nodup := by
  obtain ⟨o, ho, hJ⟩ := g.Jtrack
  have hk := jtrack_keys ho
  rw [hJ]
  refine ⟨by rw [keys_map_key]; exact hk.map strKey_inj, ?_⟩
  intro e he
  obtain ⟨x, v, hx, rfl⟩ := mem_map_pair (g := fun v : List (List Int) => v.map (·.map intKey)) he
  have h1 : Dict.get? o x = some v := Dict.get?_of_mem hk hx
  obtain ⟨hno, -⟩ := jtrack_eq ho x
  have hin : x ∈ chosen st none ∧ x ∉ stationExclusion := by
    by_contra h
    rw [hno (by tauto)] at h1; cases h1
  obtain ⟨bs, hbs⟩ : ∃ bs, (x, bs) ∈ st := by
    have : x ∈ Dict.keys st := hin.1
    obtain ⟨⟨a, b⟩, h, rfl⟩ := List.mem_map.1 this
    exact ⟨b, h⟩
  obtain ⟨gs, hgs, -, hnd, -⟩ := C28_groups td st g.data.trains.keys g.data.stations.1.1
    g.data.tagged none o ho x bs hbs hin.1 hin.2
  rw [h1] at hgs; cases hgs
  exact flatten_map hnd

theorem Gen.labels_trackOccupation (g : Gen td st table t1 r ts tt) (hm : AllMeet td)
    (hn : NamesClear td st) : Labels (Verif.trackOccupation tt dv y ts dmax)
      (fun i => i.cls = "track_occupation" ∧ i.Good) := by
  obtain ⟨hk, hnd⟩ := g.jtrack_once
  unfold Verif.trackOccupation
  have key : Labels (collect ts.Jtrack fun e => collect e.2 fun js => collect (pairs js) fun p =>
      trackOccBody e.1 p.1 p.2 tt dv y ts dmax)
      (fun i => ∃ e ∈ ts.Jtrack, ∃ js ∈ e.2, ∃ p ∈ pairs js,
        (∃ sp, PrevOf ts p.1 e.1 sp ∧ sp ∈ Dict.keys ts.Jd ∧ i = .order p.1 p.2 e.1 sp) ∨
        i = .track p.2 p.1 e.1 ∨ i = .track p.1 p.2 e.1) := by
    refine labels_collect (fun e he => labels_collect (fun js hjs => labels_collect (fun p hp => ?_)
      ?_) ?_) ?_
    · have hne : p.1 ≠ p.2 := pairs_ne ((flatten_pairwise (hnd e he)).1 js hjs)
        (show (p.1, p.2) ∈ pairs js from hp)
      obtain ⟨x, l, hx, rfl, -⟩ := g.jtrack_mem he hjs
      obtain ⟨hp1, hp2⟩ := mem_pairs_left hp
      obtain ⟨t, -, ht⟩ := List.mem_map.1 hp1
      obtain ⟨t', -, ht'⟩ := List.mem_map.1 hp2
      obtain ⟨b, hb, hbf⟩ := trackSkip_ok g x t
      obtain ⟨b', hb', hbf'⟩ := trackSkip_ok g x t'
      rw [← ht, ← ht'] at hne
      rw [hx, ← ht, ← ht']
      change Labels (trackOccBody (.str x) (.int t) (.int t') tt dv y ts dmax) _
      unfold trackOccBody
      split
      · refine (labels_append (Q := fun i => (∃ sp, PrevOf ts (.int t) (.str x) sp ∧
            sp ∈ Dict.keys ts.Jd ∧ i = .order (.int t) (.int t') (.str x) sp) ∨
            i = .track (.int t') (.int t) (.str x))
          (Q' := fun i => i = .track (.int t) (.int t') (.str x)) ?_ ?_ ?_).mono ?_
        · unfold trackOccFirst
          refine labels_bind fun bb hbb => ?_
          rw [hb'] at hbb; cases hbb
          split
          · rename_i hf
            have hf : b' = false := by simpa using hf
            refine labels_append (labels_keep _ _ _)
              (labels_order (subsequent_none g hm (hbf' hf))) ?_
            rintro i ⟨sp, -, -, rfl⟩ h
            cases h
          · exact labels_nil _
        · unfold trackOccSecond
          refine labels_bind fun bb hbb => ?_
          rw [hb] at hbb; cases hbb
          split
          · rename_i hf
            have hf : b = false := by simpa using hf
            exact labels_order (subsequent_none g hm (hbf hf))
          · exact labels_nil _
        · rintro i (⟨sp, -, -, rfl⟩ | rfl) h
          · cases h
          · injection h with h _ _; exact hne h.symm
        · rintro i ((h | h) | h)
          · exact .inl h
          · exact .inr (.inl h)
          · exact .inr (.inr h)
      · exact labels_nil _
    · refine (pairs_pairwise ((flatten_pairwise (hnd e he)).1 js hjs)).imp ?_
      rintro ⟨a, b⟩ ⟨a', b'⟩ ⟨h1, h2⟩ i (⟨sp, -, -, rfl⟩ | rfl | rfl) (⟨sp', -, -, h3⟩ | h3 | h3)
      · injection h3 with h3 h4; exact h1 (Prod.ext h3 h4)
      · cases h3
      · cases h3
      · cases h3
      · injection h3 with h3 h4; exact h1 (Prod.ext h4 h3)
      · injection h3 with h3 h4; exact h2 (Prod.ext h4 h3)
      · cases h3
      · injection h3 with h3 h4; exact h2 (Prod.ext h3 h4)
      · injection h3 with h3 h4; exact h1 (Prod.ext h3 h4)
    · refine ((flatten_pairwise (hnd e he)).2).imp ?_
      rintro g1 g2 hd i ⟨p, hp, hi⟩ ⟨q, hq, hi'⟩
      obtain ⟨h1, h2⟩ := mem_pairs_left hp
      obtain ⟨h3, h4⟩ := mem_pairs_left hq
      rcases hi with ⟨sp, -, -, rfl⟩ | rfl | rfl <;> rcases hi' with ⟨sp', -, -, h⟩ | h | h
      · injection h with h5 h6; exact hd _ h1 (by rw [h5]; exact h3)
      · cases h
      · cases h
      · cases h
      · injection h with h5 h6; exact hd _ h2 (by rw [h5]; exact h4)
      · injection h with h5 h6; exact hd _ h2 (by rw [h5]; exact h3)
      · cases h
      · injection h with h5 h6; exact hd _ h1 (by rw [h5]; exact h4)
      · injection h with h5 h6; exact hd _ h1 (by rw [h5]; exact h3)
    · refine (keys_pairwise hk).imp ?_
      rintro e1 e2 hd i ⟨_, _, p, hp, hi⟩ ⟨_, _, q, hq, hi'⟩
      rcases hi with ⟨sp, -, -, rfl⟩ | rfl | rfl <;> rcases hi' with ⟨sp', -, -, h⟩ | h | h <;>
        first
        | (injection h with _ _ h7 _; exact hd h7)
        | (injection h with _ _ h7; exact hd h7)
        | cases h
  refine key.mono ?_
  rintro i ⟨e, he, js, hjs, p, hp, hi⟩
  obtain ⟨x, l, hx, rfl, -, hserve⟩ := g.jtrack_mem he hjs
  obtain ⟨h1, h2⟩ := mem_pairs_left hp
  obtain ⟨a, ha, hae⟩ := List.mem_map.1 h1
  obtain ⟨b, hb, hbe⟩ := List.mem_map.1 h2
  obtain ⟨rows, ht, hs⟩ := hserve a ha
  obtain ⟨rows', ht', hs'⟩ := hserve b hb
  rw [hx, ← hae, ← hbe] at hi
  have k1 := hn.train ht
  have k2 := hn.train ht'
  have k3 := hn.station g.data ht hs
  rcases hi with ⟨sp, hsp, hspd, rfl⟩ | rfl | rfl
  · obtain ⟨t0, x', rows0, h0, hx', hT, hc⟩ := g.prev.1 hsp
    cases h0; cases hx'
    cases hT.unique ht
    rcases hc with ⟨x0, mid, rfl, hc⟩ | ⟨rfl, -⟩
    · exact ⟨rfl, k1, k2, k3, hn.station g.data ht (consecutive_serves hc).1⟩
    · obtain ⟨d, -, hJd⟩ := g.Jd
      rw [hJd, keys_map_key] at hspd
      obtain ⟨z, -, hz⟩ := List.mem_map.1 hspd
      cases hz
  · exact ⟨rfl, k2, k1, k3⟩
  · exact ⟨rfl, k1, k2, k3⟩

/-! ## Rolling stock -/

theorem pair9_pairwise (hk : (Dict.keys td).Nodup) (hn : ∀ t ∈ Dict.keys td, 0 ≤ t) :
    (getTrainsPair9 td).Pairwise fun p q => p ≠ q ∧ p ≠ (q.2, q.1) := by
  have hmem : ∀ t p, (p ∈ if t * 10 + 9 ∈ getJ td then [(t, t * 10 + 9)] else []) →
      p = (t, t * 10 + 9) := by
    intro t p hp
    split at hp
    · simpa using hp
    · simp at hp
  unfold getTrainsPair9
  rw [List.pairwise_flatMap]
  refine ⟨fun t _ => by split <;> simp, ?_⟩
  have hJ : (getJ td).Nodup := hk
  refine hJ.imp_of_mem ?_
  intro a b ha hb hab p hp q hq
  rw [hmem a p hp, hmem b q hq]
  refine ⟨fun h => hab (Prod.mk.inj h).1, fun h => ?_⟩
  obtain ⟨h1, h2⟩ := Prod.mk.inj h
  have := hn a ha
  have := hn b hb
  simp only at h1 h2
  omega

theorem jround_list_nodup {ps : List (Int × Int)}
    (hps : ps.Pairwise fun p q => p ≠ q ∧ p ≠ (q.2, q.1)) :
    ∀ {acc acc' : Dict String (List (Int × Int)) × Option String},
      loop ps (jroundStep td st) acc = .ok acc' →
      (∀ s l, Dict.get? acc.1 s = some l → l.Nodup ∧ ∀ q ∈ l, ∀ p ∈ ps, q ≠ p ∧ q ≠ (p.2, p.1)) →
      ∀ s l, Dict.get? acc'.1 s = some l → l.Nodup := by
  induction ps with
  | nil =>
    intro acc acc' h hacc s l hl
    simp only [loop, Except.ok.injEq] at h
    subst h
    exact (hacc s l hl).1
  | cons p ps ih =>
    intro acc acc' h hacc
    obtain ⟨hp, hps⟩ := List.pairwise_cons.1 hps
    simp only [loop] at h
    split at h
    · cases h
    · rename_i acc1 h1
      refine ih hps h ?_
      obtain ⟨station, q0, hq0, hset⟩ : ∃ station q0, (q0 = p ∨ q0 = (p.2, p.1)) ∧
          acc1.1 = Dict.set acc.1 station ((Dict.get? acc.1 station).getD [] ++ [q0]) := by
        unfold jroundStep at h1
        obtain ⟨p0, -, h1⟩ := bind_ok h1
        obtain ⟨p1, -, h1⟩ := bind_ok h1
        obtain ⟨f0, -, h1⟩ := bind_ok h1
        obtain ⟨l1, -, h1⟩ := bind_ok h1
        obtain ⟨f1, -, h1⟩ := bind_ok h1
        obtain ⟨l0, -, h1⟩ := bind_ok h1
        simp only at h1
        split at h1
        · cases h1
        · obtain ⟨s, -, h1⟩ := bind_ok h1
          cases h1
          refine ⟨s, _, ?_, rfl⟩
          split
          · exact .inr rfl
          · split <;> exact .inl rfl
      intro s l hl
      rw [hset, Dict.get?_set] at hl
      split at hl
      · cases hl
        rename_i hs
        subst hs
        have hold : ∀ q ∈ (Dict.get? acc.1 s).getD [], ∀ p' ∈ p :: ps,
            q ≠ p' ∧ q ≠ (p'.2, p'.1) := by
          cases hg : Dict.get? acc.1 s with
          | none => simp
          | some l' => exact (hacc s l' hg).2
        have hnd : ((Dict.get? acc.1 s).getD []).Nodup := by
          cases hg : Dict.get? acc.1 s with
          | none => simp
          | some l' => exact (hacc s l' hg).1
        refine ⟨?_, ?_⟩
        · rw [List.nodup_append]
          refine ⟨hnd, List.nodup_singleton _, ?_⟩
          intro a ha b hb hab
          simp only [List.mem_singleton] at hb
          subst hab; subst hb
          obtain ⟨h2, h3⟩ := hold a ha p List.mem_cons_self
          rcases hq0 with h | h
          · exact h2 h
          · exact h3 h
        · intro q hq p' hp'
          rcases List.mem_append.1 hq with hq | hq
          · exact hold q hq p' (List.mem_cons_of_mem _ hp')
          · simp only [List.mem_singleton] at hq
            subst hq
            obtain ⟨h2, h3⟩ := hp p' hp'
            rcases hq0 with rfl | rfl
            · exact ⟨h2, h3⟩
            · refine ⟨fun h => h3 ?_, fun h => h2 ?_⟩
              · rw [← h]
              · obtain ⟨h4, h5⟩ := Prod.mk.inj h
                exact Prod.ext h5 h4
      · obtain ⟨h2, h3⟩ := hacc s l hl
        exact ⟨h2, fun q hq p' hp' => h3 q hq p' (List.mem_cons_of_mem _ hp')⟩

theorem Gen.jround_once (g : Gen td st table t1 r ts tt) (hn : NamesClear td st) :
    ∀ e ∈ ts.Jround, e.2.Nodup := by
  have hk := g.jround_nodup
  obtain ⟨o, ho, hJ⟩ := g.Jround
  intro e he
  rw [hJ] at he hk
  rw [keys_map_key] at hk
  obtain ⟨x, v, hx, rfl⟩ := mem_map_pair
    (g := fun l : List (Int × Int) => l.map fun p => (intKey p.1, intKey p.2)) he
  unfold getJround at ho
  obtain ⟨acc, hl, ho⟩ := bind_ok ho
  cases ho
  refine List.Nodup.map ?_ (jround_list_nodup (pair9_pairwise g.data.trains.keys hn.trains) hl
    (by simp [Dict.get?]) x v (Dict.get?_of_mem hk.of_map hx))
  rintro ⟨a, b⟩ ⟨a', b'⟩ h
  obtain ⟨h1, h2⟩ := Prod.mk.inj h
  exact Prod.ext (intKey_inj h1) (intKey_inj h2)

theorem Gen.labels_rollingStock (g : Gen td st table t1 r ts tt) (hm : AllMeet td)
    (hn : NamesClear td st) : Labels (rollingStockCirc tt dv ts dmax)
      (fun i => i.cls = "circulation" ∧ i.Good) := by
  unfold rollingStockCirc
  have key : Labels (collect ts.Jround fun e => collect e.2 fun p => circBody e.1 p.1 p.2 tt dv ts dmax)
      (fun i => ∃ e ∈ ts.Jround, ∃ p ∈ e.2, i = .circ p.1 p.2 e.1) := by
    refine labels_collect (fun e he => labels_collect (fun p hp => labels_circ _ _ _) ?_) ?_
    · refine (g.jround_once hn e he).imp ?_
      rintro p q hpq i rfl h
      injection h with h1 h2 _
      exact hpq (Prod.ext h1 h2)
    · refine (keys_pairwise g.jround_nodup).imp ?_
      rintro e1 e2 hd i ⟨p, hp, rfl⟩ ⟨q, hq, h⟩
      injection h with _ _ h7
      exact hd h7
  refine key.mono ?_
  rintro i ⟨e, he, p, hp, rfl⟩
  obtain ⟨x, t, t', hx, rfl, ht, ht', -, b, -, hb⟩ :=
    g.round hm (Dict.get?_of_mem g.jround_nodup (show (e.1, e.2) ∈ ts.Jround from he)) hp
  rw [hx]
  obtain ⟨bs, hbs, -⟩ := hb
  obtain ⟨h1, h2⟩ := hn.stations _ hbs
  exact ⟨rfl, hn.key ht, hn.key ht', x, rfl, (g.data.names _ hbs).2, h1, h2⟩

/-! ## Switches -/

theorem makeJswitchDict_nodup (ttj ttj' : List Row) (s : String) (j j' : Int)
    (i i' o o' : List Int) : (makeJswitchDict ttj ttj' s j j' i i' o o').Nodup := by
  unfold makeJswitchDict
  simp only
  split_ifs <;> simp

theorem makeJswitchDict_keys {ttj ttj' : List Row} {s : String} {j j' : Int}
    {i i' o o' : List Int} {x : Dict Int String}
    (h : x ∈ makeJswitchDict ttj ttj' s j j' i i' o o') : Dict.keys x = [j, j'] := by
  obtain ⟨p, p', S, S', -, -, -, rfl⟩ := makeJswitch_sub h
  rfl

theorem collect_nodup {α β : Type} {xs : List α} {f : α → Py (List β)} {v : List β}
    (h : collect xs f = .ok v) (h1 : ∀ x ∈ xs, ∀ l, f x = .ok l → l.Nodup)
    (h2 : xs.Pairwise fun x y => ∀ l l', f x = .ok l → f y = .ok l' → ∀ z ∈ l, z ∉ l') :
    v.Nodup := by
  induction xs generalizing v with
  | nil => simp only [collect, Except.ok.injEq] at h; subst h; exact List.nodup_nil
  | cons x xs ih =>
    simp only [collect] at h
    split at h
    · cases h
    · rename_i a ha
      split at h
      · cases h
      · rename_i b hb
        cases h
        obtain ⟨hx, h2⟩ := List.pairwise_cons.1 h2
        rw [List.nodup_append]
        refine ⟨h1 x List.mem_cons_self a ha,
          ih hb (fun z hz => h1 z (List.mem_cons_of_mem _ hz)) h2, ?_⟩
        intro z hz z' hz' he
        subst he
        obtain ⟨w, hw, l, hl, hzl⟩ := (mem_collect hb z).1 hz'
        exact hx w hw a l ha hl z hz hzl

theorem Gen.jswitch_once (g : Gen td st table t1 r ts tt) :
    (Dict.keys ts.Jswitch).Nodup ∧ ∀ e ∈ ts.Jswitch, e.2.Nodup := by
  obtain ⟨o, ho, hJ⟩ := g.Jswitch
  have hk := jswitch_keys_nodup ho
  rw [hJ]
  refine ⟨by rw [keys_map_key]; exact hk.map strKey_inj, ?_⟩
  intro e he
  obtain ⟨x, v, hx, rfl⟩ := mem_map_pair (g := fun v : List (Dict Int String) =>
    v.map fun x => x.map fun y => (intKey y.1, y.2)) he
  have h1 : Dict.get? o x = some v := Dict.get?_of_mem hk hx
  obtain ⟨hno, hyes⟩ := jswitch_station g.data.stations.1.1 ho x
  have hin : x ∈ chosen st none := by
    by_contra h
    rw [hno h] at h1; cases h1
  obtain ⟨bs, v', hbs, hv', hc⟩ := hyes hin
  rw [h1] at hv'; cases hv'
  have hinj : Function.Injective fun x : Dict Int String => x.map fun y => (intKey y.1, y.2) := by
    refine List.map_injective_iff.2 ?_
    rintro ⟨a, b⟩ ⟨a', b'⟩ h
    obtain ⟨h1, h2⟩ := Prod.mk.inj h
    exact Prod.ext (intKey_inj h1) h2
  refine List.Nodup.map hinj (collect_nodup hc ?_ ?_)
  · intro q hq l hl
    obtain ⟨a, -, hl⟩ := bind_ok hl
    obtain ⟨b, -, hl⟩ := bind_ok hl
    unfold jswitchPair at hl
    obtain ⟨_, -, hl⟩ := bind_ok hl
    obtain ⟨_, -, hl⟩ := bind_ok hl
    obtain ⟨_, -, hl⟩ := bind_ok hl
    obtain ⟨_, -, hl⟩ := bind_ok hl
    obtain ⟨_, -, hl⟩ := bind_ok hl
    obtain ⟨_, -, hl⟩ := bind_ok hl
    split at hl
    · cases hl; exact makeJswitchDict_nodup _ _ _ _ _ _ _ _ _
    · cases hl; exact List.nodup_nil
  · have hkeys : ∀ (q : Int × Int) (l : List (Dict Int String)), (do
        let a ← Dict.at! td q.1
        let b ← Dict.at! td q.2
        jswitchPair table st x q.1 q.2 a.2 b.2) = .ok l → ∀ z ∈ l, Dict.keys z = [q.1, q.2] := by
      intro q l hl z hz
      obtain ⟨a, -, hl⟩ := bind_ok hl
      obtain ⟨b, -, hl⟩ := bind_ok hl
      unfold jswitchPair at hl
      obtain ⟨_, -, hl⟩ := bind_ok hl
      obtain ⟨_, -, hl⟩ := bind_ok hl
      obtain ⟨_, -, hl⟩ := bind_ok hl
      obtain ⟨_, -, hl⟩ := bind_ok hl
      obtain ⟨_, -, hl⟩ := bind_ok hl
      obtain ⟨_, -, hl⟩ := bind_ok hl
      split at hl
      · cases hl; exact makeJswitchDict_keys hz
      · cases hl; cases hz
    refine (pairs_pairwise ((trainsAt_sublist td false bs).nodup g.data.trains.keys)).imp ?_
    intro p q hpq l l' hl hl' z hz hz'
    have h2 := hkeys p l hl z hz
    rw [hkeys q l' hl' z hz'] at h2
    simp only [List.cons.injEq, and_true] at h2
    exact hpq.1 (Prod.ext h2.1.symm h2.2.symm)

/-- the departure station tells whether the train enters or leaves -/
theorem dep_place {rows : List Row} (ho : OnceEach rows) {x a b z : String}
    (h : (a = "out" ∧ z = x ∧ ∃ x1 mid, Consecutive rows x x1 mid) ∨
       (a = "in" ∧ ∃ mid, Consecutive rows z x mid))
    (h' : (b = "out" ∧ z = x ∧ ∃ x1 mid, Consecutive rows x x1 mid) ∨
       (b = "in" ∧ ∃ mid, Consecutive rows z x mid)) : a = b := by
  rcases h with ⟨rfl, hz, -⟩ | ⟨rfl, mid, hc⟩ <;> rcases h' with ⟨rfl, hz', -⟩ | ⟨rfl, mid', hc'⟩
  · rfl
  · exact absurd hz (consecutive_ne ho hc')
  · exact absurd hz' (consecutive_ne ho hc)
  · rfl

theorem Gen.labels_switchOccupation (g : Gen td st table t1 r ts tt) (hn : NamesClear td st) :
    Labels (Verif.switchOccupation tt dv y ts dmax) (fun i => i.cls = "switch" ∧ i.Good) := by
  obtain ⟨hk, hnd⟩ := g.jswitch_once
  unfold Verif.switchOccupation
  have key : Labels (collect ts.Jswitch fun e => collect e.2 fun pair =>
      switchBody e.1 pair tt dv y ts dmax)
      (fun i => ∃ e ∈ ts.Jswitch, ∃ pair ∈ e.2, ∃ x t t' a a' rows rows' z z', e.1 = .str x ∧
        pair = [(.int t, a), (.int t', a')] ∧ [t, t'].Sublist (Dict.keys td) ∧
        TableOf td t rows ∧ TableOf td t' rows' ∧
        ((a = "out" ∧ z = x ∧ ∃ x1 mid, Consecutive rows x x1 mid) ∨
          (a = "in" ∧ ∃ mid, Consecutive rows z x mid)) ∧
        ((a' = "out" ∧ z' = x ∧ ∃ x1 mid, Consecutive rows' x x1 mid) ∨
          (a' = "in" ∧ ∃ mid, Consecutive rows' z' x mid)) ∧
        (i = .switch (.int t) (.int t') e.1 (.str z) (.str z') ∨
          i = .switch (.int t') (.int t) e.1 (.str z') (.str z))) := by
    refine labels_collect (fun e he => labels_collect (fun pair hp => ?_) ?_) ?_
    · obtain ⟨x, t, t', a, a', rows, rows', hx, rfl, hs, ht, ht', ha, ha'⟩ := g.jswitch_mem he hp
      have hne := sublist_int_ne g.data.trains.keys hs
      obtain ⟨z, hz, hza⟩ := g.depStation ht ha (get?_pair_fst (t' := t') (a' := a'))
      obtain ⟨z', hz', hza'⟩ := g.depStation ht' ha' (get?_pair_snd (t := t) (a := a) hne)
      unfold switchBody
      simp only
      split
      · refine labels_bind fun sp hsp => labels_bind fun spp hspp => ?_
        rw [hx, hz] at hsp; cases hsp
        rw [hx, hz'] at hspp; cases hspp
        refine (labels_append (labels_switch _ _ _ _ _) (labels_switch _ _ _ _ _) ?_).mono ?_
        · rintro i rfl h
          injection h with h _ _ _ _
          injection h with h
          exact hne h
        · intro i hi
          exact ⟨x, t, t', a, a', rows, rows', z, z', hx, rfl, hs, ht, ht', hza, hza', hi⟩
      · exact labels_nil _
    · refine (hnd e he).imp ?_
      rintro p q hpq i ⟨x, t, t', a, a', rows, rows', z, z', hx, rfl, hs, ht, ht', hz, hz', hi⟩
        ⟨x2, u, u', b, b', rows2, rows2', w, w', hx2, rfl, hs2, hu, hu', hw, hw', hi'⟩
      rw [hx] at hx2
      injection hx2 with hx2
      subst hx2
      rcases hi with rfl | rfl <;> rcases hi' with h | h <;> injection h with h1 h2 _ h4 h5 <;>
        injection h1 with h1 <;> injection h2 with h2 <;> injection h4 with h4 <;>
        injection h5 with h5 <;> subst h1 <;> subst h2 <;> subst h4 <;> subst h5
      · cases ht.unique hu
        cases ht'.unique hu'
        apply hpq
        rw [dep_place (g.data.trains.table ht).1 hz hw, dep_place (g.data.trains.table ht').1 hz' hw']
      · exact sublist_antisymm g.data.trains.keys hs hs2
      · exact sublist_antisymm g.data.trains.keys hs hs2
      · cases ht.unique hu
        cases ht'.unique hu'
        apply hpq
        rw [dep_place (g.data.trains.table ht).1 hz hw, dep_place (g.data.trains.table ht').1 hz' hw']
    · refine (keys_pairwise hk).imp ?_
      rintro e1 e2 hd i ⟨_, _, _, _, _, _, _, _, _, _, _, _, _, _, _, _, _, _, hi⟩
        ⟨_, _, _, _, _, _, _, _, _, _, _, _, _, _, _, _, _, _, hi'⟩
      rcases hi with rfl | rfl <;> rcases hi' with h | h <;> injection h with _ _ h7 _ _ <;>
        exact hd h7
  refine key.mono ?_
  rintro i ⟨e, he, pair, hp, x, t, t', a, a', rows, rows', z, z', hx, rfl, -, ht, ht', hz, hz', hi⟩
  have place : ∀ {t : Int} {rows : List Row} {a z : String}, TableOf td t rows →
      ((a = "out" ∧ z = x ∧ ∃ x1 mid, Consecutive rows x x1 mid) ∨
        (a = "in" ∧ ∃ mid, Consecutive rows z x mid)) →
      IsStation (.str x) ∧ IsStation (.str z) := by
    intro t rows a z ht hz
    rcases hz with ⟨-, rfl, x1, mid, hc⟩ | ⟨-, mid, hc⟩
    · have := hn.station g.data ht (consecutive_serves hc).1
      exact ⟨this, this⟩
    · exact ⟨hn.station g.data ht (consecutive_serves hc).2,
        hn.station g.data ht (consecutive_serves hc).1⟩
  obtain ⟨k1, k2⟩ := place ht hz
  obtain ⟨-, k3⟩ := place ht' hz'
  rw [hx] at hi
  rcases hi with rfl | rfl
  · exact ⟨rfl, hn.train ht, hn.train ht', k1, k2, k3⟩
  · exact ⟨rfl, hn.train ht', hn.train ht, k1, k3, k2⟩

end Verif
