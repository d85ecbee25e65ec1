import Verif.Props.TableRules

/-!
# C71: the rules of the tables are exactly what the problem demands
-/

namespace Verif

variable {td : Trains} {st : Stations} {table : List PathRow} {t1 : String} {r : Int}
  {delays : List (Int × ℚ)} {ts : TrainSets} {tt : Timetable} {dmax : ℚ} {cat : Cat} {b : Built}
  {σ : LpVar → ℚ}

/-- no train takes over the rolling stock of two trains -/
def OneStock (td : Trains) (st : Stations) : Prop :=
  ∀ t0 t0' t x, HandsOn td st t0 t x → HandsOn td st t0' t x → t0 = t0'

/-- trains against each other on a line are listed -/
theorem Gen.josingle_found (g : Gen td st table t1 r ts tt) {t t' : Int} {x x2 : String}
    (hop : Opposite td x x2 t t') (hgo : GoesOn td st x x2 t' ∨ GoesOn td st x2 x t) :
    (∃ e ∈ ts.Josingle, e.1 = (.str x, .str x2) ∧ (.int t, .int t') ∈ e.2) ∨
    (∃ e ∈ ts.Josingle, e.1 = (.str x2, .str x) ∧ (.int t', .int t) ∈ e.2) := by
  have G := g.data
  obtain ⟨o, ho, hJ⟩ := g.Josingle
  obtain ⟨bl, -, ⟨rows, m, ht, hc, -⟩, -⟩ := id hop
  have hin : ∀ {t rows x}, TableOf td t rows → Serves rows x → x ∈ chosen st none := by
    rintro t rows x ht ⟨row, hr, hs⟩
    obtain ⟨bs, hbs, -⟩ := G.station ht hr hs
    exact List.mem_map.2 ⟨_, hbs, rfl⟩
  have hs := consecutive_serves hc
  have mem : ∀ {k k' : String} {l : List (Int × Int)}, Dict.get? o (k, k') = some l →
      ((Val.str k, Val.str k'), l.map fun p => (intKey p.1, intKey p.2)) ∈ ts.Josingle := by
    intro k k' l hl
    rw [hJ]
    exact List.mem_map.2 ⟨_, Dict.mem_of_get? hl, rfl⟩
  obtain ⟨o', ho', hall⟩ := C30_computed td st G.trains.keys G.stations.1.1 G.tagged G.trains.once
    none (fun _ h => h) G.stations.1.1
  rw [ho] at ho'
  cases ho'
  have found : (∃ l, Dict.get? o (x, x2) = some l ∧ (t, t') ∈ l) ∨
      (∃ l, Dict.get? o (x2, x) = some l ∧ (t', t) ∈ l) := by
    refine hgo.imp (fun h => ?_) (fun h => ?_)
    · refine (hall x x2 t t').2 ⟨hin ht hs.1, hin ht hs.2, hop, h.1, ?_⟩
      rintro ⟨hb, i, i', hi, hn⟩
      rcases h.2 with h | h
      · exact h hb
      · exact hn (h i' i hi.symm)
    · refine (hall x2 x t' t).2 ⟨hin ht hs.2, hin ht hs.1, hop.symm, h.1, ?_⟩
      rintro ⟨hb, i, i', hi, hn⟩
      rcases h.2 with h | h
      · exact h hb
      · exact hn (h i' i hi.symm)
  refine found.imp ?_ ?_
  · rintro ⟨l, hl, hp⟩
    exact ⟨_, mem hl, rfl, List.mem_map.2 ⟨_, hp, rfl⟩⟩
  · rintro ⟨l, hl, hp⟩
    exact ⟨_, mem hl, rfl, List.mem_map.2 ⟨_, hp, rfl⟩⟩

/-- trains with a common switch are listed -/
theorem Gen.jswitch_listed (g : Gen td st table t1 r ts tt) (hcells : SameCells table) {t t' : Int}
    {x a a' : String} (h : ShareSwitch td table t t' x a a') :
    ∃ e ∈ ts.Jswitch, e.1 = .str x ∧
      ([(.int t, a), (.int t', a')] ∈ e.2 ∨ [(.int t', a'), (.int t, a)] ∈ e.2) := by
  have G := g.data
  obtain ⟨S, S', z, hS, hS', hz, hz'⟩ := h.common
  obtain ⟨o, ho, hJ⟩ := g.Jswitch
  obtain ⟨rows, ht, q, hq, bs, hbs, hqb⟩ := switchesAt_calls G.tagged hS
  have hch : x ∈ chosen st none := List.mem_map.2 ⟨_, hbs, rfl⟩
  rw [← jswitch_zeros] at ho
  obtain ⟨v, hv, -, hall⟩ := C32_stations_partial td st (zeros table) G.stations G.tagged
    G.trains (zeros_noWhole table) (sameCells_zeros hcells) none o ho x hch h.station
  refine ⟨(.str x, v.map fun y => y.map fun w => (intKey w.1, w.2)), ?_, rfl, ?_⟩
  · rw [hJ]
    exact List.mem_map.2 ⟨_, Dict.mem_of_get? hv, rfl⟩
  · exact ((hall t a t' a' h.other).2 ⟨h.ko, S, S', hS, hS', z, hz, hz'⟩).imp
      (fun h => List.mem_map.2 ⟨_, h, rfl⟩) (fun h => List.mem_map.2 ⟨_, h, rfl⟩)

section
variable (G : GoodData td st) (hm : AllMeet td) (hl : LinesClear td) (hcells : SameCells table)
  (hone : OneStock td st) (h : makeInput td st table t1 r delays = .ok (ts, tt))
  (hb : buildProblem ts tt dmax cat = .ok b) (hf : Feasible b σ) {dep : Int → String → ℚ}
  (hdep : ∀ t x, Leaves td t x → Departs ts tt b.dv σ (.int t) (.str x) (dep t x))

include G h hm hdep hone in
/-- the rolling stock comes, in the sense of the problem -/
theorem comes_arrives {t : Int} {x : String} {a : ℚ} (ha : StockComes td st t1 r delays dep t x a) :
    Arrives ts tt (Departs ts tt b.dv σ) (.int t) (.str x) a := by
  have g := gen_of_input G h
  have takes : ∀ {t0}, HandsOn td st t0 t x → TakesOver ts (.int t) (.str x) (.int t0) := by
    intro t0 hh
    obtain ⟨ps, h1, h2⟩ := (g.round_iff hm).2 ⟨x, t0, t, rfl, rfl, rfl, hh⟩
    cases hfind : ps.find? (fun p => p.2 = Val.int t) with
    | none =>
      rw [List.find?_eq_none] at hfind
      exact absurd (by simp) (hfind _ h2)
    | some q =>
      have h3 := List.find?_some hfind
      obtain ⟨q1, q2⟩ := q
      simp only [decide_eq_true_eq] at h3
      subst h3
      obtain ⟨y, u, u', e1, e2, e3, hh'⟩ := (g.round_iff hm).1 ⟨ps, h1, List.mem_of_find?_eq_some hfind⟩
      cases e1; cases e3
      subst e2
      rw [hone t0 u t x hh hh']
      exact ⟨ps, h1, hfind, by simp⟩
  have none : (∀ t0, ¬ HandsOn td st t0 t x) → ∀ k, ¬ TakesOver ts (.int t) (.str x) k := by
    rintro hn k ⟨ps, h1, h2, -⟩
    obtain ⟨y, t0, t', e1, e2, e3, hh⟩ := (g.round_iff hm).1 ⟨ps, h1, List.mem_of_find?_eq_some h2⟩
    cases e1; cases e3
    exact hn t0 hh
  rcases ha with ⟨t0, rows, p, m, hh, ht, hc, rfl⟩ | ⟨hno, rows, p, m, ht, hc, rfl⟩ |
    ⟨hno, rows, row, ht, hfs, he⟩
  · exact .inl ⟨.int t0, .str p, _, _, takes hh,
      g.prev.2 ⟨t0, x, rows, rfl, rfl, ht, .inl ⟨p, m, rfl, hc⟩⟩,
      hdep t0 p (leaves_of_next G ht hc), g.pass t0 rows p x m ht hc, rfl⟩
  · exact .inr (.inl ⟨none hno, .str p, _, _,
      g.prev.2 ⟨t, x, rows, rfl, rfl, ht, .inl ⟨p, m, rfl, hc⟩⟩, by simp,
      hdep t p (leaves_of_next G ht hc), g.pass t rows p x m ht hc, rfl⟩)
  · exact .inr (.inr ⟨none hno, g.prev.2 ⟨t, x, rows, rfl, rfl, ht, .inr ⟨rfl, row, hfs⟩⟩,
      (C70_earliest G h ht (g.begins_leaves ht hfs)).2 he⟩)

include G hm hcells h hb hf in
/-- trains at common switches -/
theorem switch_decided {t t' : Int} {x a a' : String} (hsw : ShareSwitch td table t t' x a a')
    {p pp : Val} {m mp : ℚ}
    (hM : SwitchMoment ts tt (Departs ts tt b.dv σ) (.str x) (.int t) a p m)
    (hM' : SwitchMoment ts tt (Departs ts tt b.dv σ) (.str x) (.int t') a' pp mp) :
    (SwitchFirst ts (First3 b.y σ) (First4 b.y σ) (FirstIn b.y σ) (.str x) (.int t) p (.int t') pp ∧
      m + 1 ≤ mp) ∨
    (SwitchFirst ts (First3 b.y σ) (First4 b.y σ) (FirstIn b.y σ) (.str x) (.int t') pp (.int t) p ∧
      mp + 1 ≤ m) := by
  have g := gen_of_input G h
  have P := parts hb
  have A := (C10_iff hb g.namesOK g.wellFormed hf.adm).1 hf.sat
  -- for one orientation of the list
  have main : ∀ {t t' : Int} {a a' : String} {p pp : Val} {m mp : ℚ}, t ≠ t' → ¬ Paired t t' →
      ∀ e ∈ ts.Jswitch, e.1 = .str x → [(.int t, a), (.int t', a')] ∈ e.2 →
      SwitchMoment ts tt (Departs ts tt b.dv σ) (.str x) (.int t) a p m →
      SwitchMoment ts tt (Departs ts tt b.dv σ) (.str x) (.int t') a' pp mp →
      (SwitchFirst ts (First3 b.y σ) (First4 b.y σ) (FirstIn b.y σ) (.str x) (.int t) p (.int t') pp ∧
        m + 1 ≤ mp) ∨
      (SwitchFirst ts (First3 b.y σ) (First4 b.y σ) (FirstIn b.y σ) (.str x) (.int t') pp (.int t) p ∧
        mp + 1 ≤ m) := by
    intro t t' a a' p pp m mp hne hst e he ex hp hM hM'
    have hr := A.switch e he _ hp _ _ _ _ rfl (g.notSame hm hst) p m pp mp 1
      (by rw [ex]; exact hM) (by rw [ex]; exact hM') g.res
    rw [ex] at hr
    have d1 := departure_of_moment (pair := [(.int t, a), (.int t', a')]) get?_pair_fst hM
    have d2 := departure_of_moment (pair := [(.int t, a), (.int t', a')]) (get?_pair_snd hne) hM'
    have ho := has_jswitch P.hy he hp rfl (by rw [ex]; exact d1) (by rw [ex]; exact d2)
    rw [ex] at ho
    have tot : SwitchFirst ts (First3 b.y σ) (First4 b.y σ) (FirstIn b.y σ) (.str x) (.int t) p
        (.int t') pp ∨ SwitchFirst ts (First3 b.y σ) (First4 b.y σ) (FirstIn b.y σ) (.str x) (.int t')
        pp (.int t) p := by
      rcases ho with ⟨h1, h2, h3, h4⟩ | ⟨h1, h2, h4⟩ | ⟨h1, h2, h4⟩ | ⟨h1, h2, h3, h4⟩
      · have h3' := (canMO_iff h3).1 rfl
        rcases firstP_total P hf.adm h4 with h | h
        · exact .inl (.inl ⟨h1, h2, h3', firstIn_iff.2 h⟩)
        · exact .inr (.inl ⟨h1.symm, h1 ▸ h2, mayOvertake_symm h3', firstIn_iff.2 h⟩)
      · have h2' : p = .str x ∨ ¬ MayOvertake ts (.int t) (.int t') (.str x) :=
          h2.imp id fun h => by rw [← canMO_iff h]; simp
        rcases firstP_total P hf.adm h4 with h | h
        · exact .inl (.inr (.inl ⟨h1, h2', first3_iff.2 h⟩))
        · exact .inr (.inr (.inl ⟨h1.symm, h1 ▸ h2'.imp id fun h h' => h (mayOvertake_symm h'),
            h1 ▸ first3_iff.2 h⟩))
      · rcases firstP_total P hf.adm h4 with h | h
        · exact .inl (.inr (.inr (.inl ⟨h1, h2, first4_iff.2 h⟩)))
        · exact .inr (.inr (.inr (.inl ⟨Ne.symm h1, h2.symm, first4_iff.2 h⟩)))
      · rcases firstP_total P hf.adm h4 with h | h
        · exact .inl (.inr (.inr (.inr ⟨h1, h2, h3, firstIn_iff.2 h⟩)))
        · exact .inr (.inr (.inr (.inr ⟨Ne.symm h1, h3, h2, firstIn_iff.2 h⟩)))
    exact tot.imp (fun h => ⟨h, hr.1 h⟩) fun h => ⟨h, hr.2 h⟩
  obtain ⟨e, he, ex, hp | hp⟩ := g.jswitch_listed hcells hsw
  · exact main hsw.other hsw.stock e he ex hp hM hM'
  · exact (main hsw.other.symm (fun h => hsw.stock h.symm) e he ex hp hM' hM).symm

include G hm hl hcells hone h hb hf hdep in
/-- the departures and precedences of a solution keep the rules of the tables -/
theorem rules_of_feasible (hgo : OppositeGoOn td st) :
    TableRules td st table t1 r delays dmax cat ⟨dep,
      fun t t' x => t ≠ t' ∧ First3 b.y σ (.int t) (.int t') (.str x),
      fun t t' x x' => t ≠ t' ∧ Plain (.str x) ∧ Plain (.str x') ∧
        First4 b.y σ (.int t) (.int t') (.str x) (.str x'),
      fun t t' x => t ≠ t' ∧ FirstIn b.y σ (.int t) (.int t') (.str x)⟩ := by
  have g := gen_of_input G h
  have P := parts hb
  have A := (C10_iff hb g.namesOK g.wellFormed hf.adm).1 hf.sat
  have hv : ∀ {a b : Int}, a ≠ b → Val.int a ≠ .int b := fun h e => h (by cases e; rfl)
  have hk : ∀ {a : Int}, Val.int a ≠ inKey := by simp [inKey]
  have R := C11_readings P.hy g.namesOK
  have tot3 : ∀ {t t' : Int} {x : String}, t ≠ t' → Exists3 b.y (.int t) (.int t') (.str x) →
      (t ≠ t' ∧ First3 b.y σ (.int t) (.int t') (.str x)) ∨
      (t' ≠ t ∧ First3 b.y σ (.int t') (.int t) (.str x)) := fun hne he =>
    (firstP_total P hf.adm he).imp (fun h => ⟨hne, first3_iff.2 h⟩) fun h => ⟨hne.symm, first3_iff.2 h⟩
  have moments : ∀ {t : Int} {rows m : List Row} {p x : String}, TableOf td t rows →
      Consecutive rows p x m → SwitchMoment ts tt (Departs ts tt b.dv σ) (.str x) (.int t) "in" (.str p)
        (dep t p + roundIf r (timesOf m).sum) := fun {t rows m p x} ht hc =>
    .inr ⟨rfl, g.prev.2 ⟨t, x, rows, rfl, rfl, ht, .inl ⟨p, m, rfl, hc⟩⟩, _, _,
      hdep t p (leaves_of_next G ht hc), g.pass t rows p x m ht hc, rfl⟩
  have leaves : ∀ {t t' : Int} {x a : String}, ShareSwitch td table t t' x "out" a → Leaves td t x := by
    intro t t' x a hsw
    have out : ∀ {u u' : Int} {a a' : String}, ∀ e ∈ ts.Jswitch, e.1 = .str x →
        [(Val.int u, a), (.int u', a')] ∈ e.2 → (a = "out" → Leaves td u x) ∧
          (a' = "out" → Leaves td u' x) := by
      intro u u' a a' e he ex hp
      obtain ⟨x', w, w', c, c', rows, rows', e1, e2, -, ht, ht', ha, ha'⟩ := g.jswitch_mem he hp
      rw [ex] at e1
      cases e1
      simp only [List.cons.injEq, Prod.mk.injEq, and_true] at e2
      obtain ⟨⟨i1, rfl⟩, i2, rfl⟩ := e2
      cases i1; cases i2
      constructor
      · rintro rfl
        rcases ha with ⟨i, -⟩ | ⟨-, x1, mid, hc⟩
        · simp at i
        · exact leaves_of_next G ht hc
      · rintro rfl
        rcases ha' with ⟨i, -⟩ | ⟨-, x1, mid, hc⟩
        · simp at i
        · exact leaves_of_next G ht' hc
    obtain ⟨e, he, ex, hp | hp⟩ := g.jswitch_listed hcells hsw
    · exact (out e he ex hp).1 rfl
    · exact (out e he ex hp).2 rfl
  have stays : ∀ {t t' x q q'}, ShareTrack td t t' x q q' → GoesOnFrom td st t x → Leaves td t x := by
    intro t t' x q q' hST hg
    obtain ⟨rows, ht, hq⟩ := hST.row
    refine ⟨q, rows, ht, hq, hST.here, fun hlast => hg x ?_ (List.infix_refl _)⟩
    exact (endsIn_iff G).2 ⟨rows, q, ht, hlast, hST.here⟩
  have cont : ∀ {u : Int} {x : String}, GoesOnFrom td st u x → ∀ k,
      ¬ ContinuedBy ts (.int u) (.str x) k := by
    intro u x hu k hk
    obtain ⟨_, _, _, i1, i2, -, he⟩ := g.continued hm hk
    cases i1; cases i2
    exact hu x he (List.infix_refl _)
  have res0 : ∀ {x : String}, ExtraRes ts tt (.str x) 0 := .inr ⟨by rw [g.noAdd]; simp, rfl⟩
  -- trains with a common track
  have track : ∀ {t t' x q q'}, ShareTrack td t t' x q q' →
      ∃ gs, Dict.get? ts.Jtrack (.str x) = some gs ∧ ∃ gr ∈ gs, .int t ∈ gr ∧ .int t' ∈ gr := by
    rintro t t' x q q' hST
    obtain ⟨rows, ht, hq⟩ := hST.row
    obtain ⟨rows', ht', hq'⟩ := hST.row'
    exact g.sameTrack ht ht' hq hq' hST.here hST.here' hST.same hST.station hST.block
  have exTrack : ∀ {t t' x q q'}, ShareTrack td t t' x q q' →
      Exists3 b.y (.int t) (.int t') (.str x) := by
    intro t t' x q q' hST
    obtain ⟨gs, hgs, gr, hgr, hj, hj'⟩ := track hST
    exact hasY3_jtrack' P (Dict.mem_of_get? hgs) hgr hj hj' (hv hST.other)
  have exLine : ∀ {t t' : Int} {rows rows' m m' : List Row} {x x2 : String}, t ≠ t' →
      TableOf td t rows → TableOf td t' rows' → Consecutive rows x x2 m → Consecutive rows' x x2 m' →
      m.map (·.path) = m'.map (·.path) → Exists3 b.y (.int t) (.int t') (.str x) := by
    intro t t' rows rows' m m' x x2 hne ht ht' hc hc' hs
    obtain ⟨d, gs, h1, h2, gr, hgr, hj, hj'⟩ := g.jd_together (Runs.of ht hc)
      (show Runs td t' x x2 (m.map (·.path)) by rw [hs]; exact Runs.of ht' hc')
    exact hasY3_jd' P (Dict.mem_of_get? h1) (Dict.mem_of_get? h2) hgr hj hj' (hv hne)
  -- the orientation that is stored
  have stored : ∀ {t t' : Int} {x : String}, [t, t'].Sublist (Dict.keys td) →
      Exists3 b.y (.int t) (.int t') (.str x) →
      ∃ v, at4 b.y (.int t) (.int t') oneStation (.str x) = .ok v := by
    intro t t' x hsub hex
    exact findP_ne_none (p := (.int t, .int t', oneStation, .str x)).2
      (hex.resolve_right fun h => h (absent_of_listed g.namesOK P.hy hk (g.listed hsub _)))
  -- what is demanded about the order of trains with a common track
  have coupled : ∀ {t t' x q q'}, [t, t'].Sublist (Dict.keys td) → ShareTrack td t t' x q q' →
      GoesOnFrom td st t' x → OrderCoupling ts b.y (First3 b.y σ) (FirstIn b.y σ) (.str x) (.int t)
        (.int t') ∧ ∃ gs, Dict.get? ts.Jtrack (.str x) = some gs ∧ ∃ gr ∈ gs, .int t ∈ gr ∧
          .int t' ∈ gr := by
    intro t t' x q q' hsub hST hgo
    obtain ⟨gs, hgs, gr, hgr, hj, hj'⟩ := track hST
    obtain ⟨x', l, e1, rfl, hls, -⟩ := g.jtrack_mem (Dict.mem_of_get? hgs) hgr
    have hsub2 : [Val.int t, .int t'].Sublist (l.map intKey) := by
      rcases sublist_pair_or hj hj' (hv hST.other) with h | h
      · exact h
      · exact absurd ((map_sublist_int h).trans hls) (sublist_antisymm G.trains.keys hsub)
    exact ⟨((A.track _ (Dict.mem_of_get? hgs) _ hgr _ _ hsub2 (g.notSame hm hST.stock)).1
      (g.notExempt hgo)).1, gs, hgs, _, hgr, hj, hj'⟩
  have asymm : ∀ {p q : OPath}, ¬ (findP b.y p ≠ .none ∧ findP b.y q ≠ .none) → FirstP b.y σ p q →
      ¬ FirstP b.y σ q p := fun {p q} hnb hF => (firstP_iff_not P hf.adm hnb (by
    rcases hF with ⟨v, h1, -⟩ | ⟨v, h1, -⟩
    · exact .inl (by rw [h1]; simp)
    · exact .inr (by rw [h1]; simp))).1 hF
  have one3 : ∀ {t t' : Int} {x : String}, t ≠ t' → First3 b.y σ (.int t) (.int t') (.str x) →
      ¬ First3 b.y σ (.int t') (.int t) (.str x) := by
    intro t t' x hne
    rw [first3_iff, first3_iff]
    exact asymm (noBoth3 g.namesOK P.hy _ hk (hv hne))
  have oneI : ∀ {t t' : Int} {x : String}, t ≠ t' → FirstIn b.y σ (.int t) (.int t') (.str x) →
      ¬ FirstIn b.y σ (.int t') (.int t) (.str x) := by
    intro t t' x hne
    rw [firstIn_iff, firstIn_iff]
    exact asymm (noBothIn g.namesOK P.hy _ (hv hne))
  -- equivalent precedences, one of which is decided
  have both : ∀ {F F' G G' : Prop}, (F ↔ G) → (F ∨ F') → (G ∨ G') → (F → ¬ F') → (G → ¬ G') →
      (F ∧ G) ∨ (F' ∧ G') := by intros; tauto
  have apart : ∀ t t' p p' x rows rows' m m', ShareSwitch td table t t' x "in" "in" →
      TableOf td t rows → TableOf td t' rows' → Consecutive rows p x m → Consecutive rows' p' x m' →
      (p = p' → m.map (·.path) ≠ m'.map (·.path)) →
      ((t ≠ t' ∧ FirstIn b.y σ (.int t) (.int t') (.str x)) ∧ dep t p + roundIf r (timesOf m).sum + 1 ≤
        dep t' p' + roundIf r (timesOf m').sum) ∨
      ((t' ≠ t ∧ FirstIn b.y σ (.int t') (.int t) (.str x)) ∧
        dep t' p' + roundIf r (timesOf m').sum + 1 ≤ dep t p + roundIf r (timesOf m).sum) := by
    intro t t' p p' x rows rows' m m' hsw ht ht' hc hc' hmo'
    have hmo : MayOvertake ts (.int t) (.int t') (.str x) :=
      (g.mayOvertake hl hsw.other ht ht' hc hc').2 hmo'
    have hx : p ≠ x := consecutive_ne (g.data.trains.table ht).1 hc
    have hx' : p' ≠ x := consecutive_ne (g.data.trains.table ht').1 hc'
    have hvs : ∀ {y z : String}, y ≠ z → Val.str y ≠ .str z := fun h e => h (by cases e; rfl)
    have key : ∀ {t t' : Int} {p p' : String}, p ≠ x → p' ≠ x →
        MayOvertake ts (.int t) (.int t') (.str x) → t ≠ t' →
        SwitchFirst ts (First3 b.y σ) (First4 b.y σ) (FirstIn b.y σ) (.str x) (.int t) (.str p)
          (.int t') (.str p') → t ≠ t' ∧ FirstIn b.y σ (.int t) (.int t') (.str x) := by
      intro t t' p p' hx hx' hmo hne hF
      rcases hF with ⟨-, -, -, h⟩ | ⟨-, h | h, -⟩ | ⟨-, h | h, -⟩ | ⟨-, -, -, h⟩
      · exact ⟨hne, h⟩
      · exact absurd h (hvs hx)
      · exact absurd hmo h
      · exact absurd h.symm (hvs hx)
      · exact absurd h.symm (hvs hx')
      · exact ⟨hne, h⟩
    exact (switch_decided G hm hcells h hb hf hsw (moments ht hc) (moments ht' hc')).imp
      (fun hF => ⟨key hx hx' hmo hsw.other hF.1, hF.2⟩)
      fun hF => ⟨key hx' hx (mayOvertake_symm hmo) hsw.other.symm hF.1, hF.2⟩
  exact {
    one := fun t t' x ⟨hne, h1⟩ ⟨_, h2⟩ => one3 hne h1 h2
    oneAgainst := fun t t' x x' ⟨hne, hx, _, h1⟩ ⟨_, _, _, h2⟩ => by
      rw [first4_iff] at h1 h2
      exact asymm (noBoth4 g.namesOK P.hy hk (plain_ne hx) fun h => hv hne h.1) h1 h2
    oneEnters := fun t t' x ⟨hne, h1⟩ ⟨_, h2⟩ => oneI hne h1 h2
    late := by
      intro t x rows e ht hlv he
      obtain ⟨e', v, he', hv', hd⟩ := hdep t x hlv
      have he2 := (C70_earliest G h ht hlv).2 he
      rw [he'] at he2
      cases he2
      obtain ⟨-, -, i⟩ := hf.adm.delays _ _ _ hv'
      obtain ⟨-, hvv⟩ := (delayVariables_find P.hdv).1 (delayAt_ok.1 hv')
      obtain ⟨l, u⟩ := delay_bounds P.hdv hf.adm.delays hv'
      simp only [hd]
      refine ⟨by linarith, by linarith, fun hcat => ?_⟩
      obtain ⟨n, hn⟩ := i (by rw [hvv]; exact hcat)
      exact ⟨n, by rw [← hn]; ring⟩
    runs := by
      intro t p x rows m q ht hc hq hs hlv
      exact A.stay _ (g.mem_J.2 ⟨rows, ht⟩) _ _
        (g.prev.2 ⟨t, x, rows, rfl, rfl, ht, .inl ⟨p, m, rfl, hc⟩⟩) (by simp) _ _ _ _
        (hdep t p (leaves_of_next G ht hc)) (hdep t x hlv) (g.pass t rows p x m ht hc) (by
          obtain ⟨row, rows', ht', hr, hrs, hrl⟩ := hlv
          cases ht'.unique ht
          rw [once_unique (G.trains.table ht).1 hq hr hs hrs]
          exact g.stop t x row ⟨rows, ht, hr, hrs, hrl⟩)
    stock := by
      intro t t' p x rows rows' m q v hh ht ht' hc hq hv'
      obtain ⟨ps, h1, h2⟩ := (g.round_iff hm).2 ⟨x, t, t', rfl, rfl, rfl, hh⟩
      obtain ⟨bl, hmeet, hbl⟩ := hh.2.2.1
      obtain ⟨rows2, row, ht2, hhead, hrs⟩ := g.starts_leaves hmeet.2 hbl
      cases ht2.unique ht'
      rw [hq] at hhead
      cases hhead
      exact A.circulation _ (Dict.mem_of_get? h1) _ h2 _
        (g.prev.2 ⟨t, x, rows, rfl, rfl, ht, .inl ⟨p, m, rfl, hc⟩⟩) _ _ _ _
        (hdep t p (leaves_of_next G ht hc)) (hdep t' x ⟨_, hrs⟩) (g.pass t rows p x m ht hc)
        (g.prep t' x q v hrs hv')
    following := by
      intro t t' x x2 rows rows' m m' hne ht ht' hc hc' hs
      obtain ⟨d, gs, h1, h2, gr, hgr, hj, hj'⟩ := g.jd_together (Runs.of ht hc)
        (show Runs td t' x x2 (m.map (·.path)) by rw [hs]; exact Runs.of ht' hc')
      obtain ⟨w, hw⟩ := g.headway' hne (Runs.of ht hc) (Runs.of ht' hc')
      obtain ⟨w', hw'⟩ := g.headway' hne.symm (Runs.of ht' hc') (Runs.of ht hc)
      rw [tauHeadway_ok] at hw hw'
      have d1 := hdep t x (leaves_of_next G ht hc)
      have d2 := hdep t' x (leaves_of_next G ht' hc')
      have e1 := g.headwaySame hne ht ht' hc hc' hs hw
      have e2 := g.headwaySame hne.symm ht' ht hc' hc hs.symm hw'
      refine (tot3 hne (exLine hne ht ht' hc hc' hs)).imp (fun hF => ⟨hF, ?_⟩) fun hF => ⟨hF, ?_⟩
      · rw [← e1]
        exact A.headway _ (Dict.mem_of_get? h1) _ (Dict.mem_of_get? h2) _ hgr _ hj _ hj' (hv hne) hF.2
          _ _ _ d1 d2 hw
      · rw [← e2]
        exact A.headway _ (Dict.mem_of_get? h1) _ (Dict.mem_of_get? h2) _ hgr _ hj' _ hj (hv hF.1) hF.2
          _ _ _ d2 d1 hw'
    opposite := by
      intro t t' x x2 rows rows' m m' hst ht ht' hc hc' hs hne
      have hop : Opposite td x x2 t t' := ⟨m.map (·.path), by simpa using hne, Runs.of ht hc, by
        rw [hs, List.reverse_reverse]; exact Runs.of ht' hc'⟩
      have hne' : t ≠ t' := hop.ne G.trains
      have hx := (G.serves ht (consecutive_serves hc).1).2
      have hx2 := (G.serves ht (consecutive_serves hc).2).2
      have d1 := hdep t x (leaves_of_next G ht hc)
      have d2 := hdep t' x2 (leaves_of_next G ht' hc')
      have p1 := g.pass t rows x x2 m ht hc
      have p2 := g.pass t' rows' x2 x m' ht' hc'
      rcases g.josingle_found hop (hgo x x2 t t' hop) with ⟨e, he, ex, hp⟩ | ⟨e, he, ex, hp⟩
      · have hex := hasY4_josingle P.hy he hp
        have hr := A.singleLine e he _ hp (g.notSame hm hst)
        rw [ex] at hr hex
        rcases firstP_total P hf.adm hex with hF | hF
        · exact .inl ⟨⟨hne', hx, hx2, first4_iff.2 hF⟩, hr.1 (first4_iff.2 hF) _ _ _ d1 d2 p1⟩
        · exact .inr ⟨⟨hne'.symm, hx2, hx, first4_iff.2 hF⟩, hr.2 (first4_iff.2 hF) _ _ _ d1 d2 p2⟩
      · have hex := hasY4_josingle P.hy he hp
        have hr := A.singleLine e he _ hp (g.notSame hm fun h => hst h.symm)
        rw [ex] at hr hex
        rcases firstP_total P hf.adm hex with hF | hF
        · exact .inr ⟨⟨hne'.symm, hx2, hx, first4_iff.2 hF⟩, hr.1 (first4_iff.2 hF) _ _ _ d2 d1 p2⟩
        · exact .inl ⟨⟨hne', hx, hx2, first4_iff.2 hF⟩, hr.2 (first4_iff.2 hF) _ _ _ d2 d1 p1⟩
    tracks := by
      intro t t' x q q' hST
      have hST' : ShareTrack td t' t x q' q := ⟨hST.other.symm, fun h => hST.stock h.symm, hST.row',
        hST.row, hST.here', hST.here, hST.same.symm, hST.station, hST.same ▸ hST.block⟩
      -- one direction
      have dir : ∀ {t t' q q'}, ShareTrack td t t' x q q' →
          First3 b.y σ (.int t) (.int t') (.str x) → GoesOnFrom td st t x →
          ∀ a, StockComes td st t1 r delays dep t' x a → dep t x ≤ a := by
        intro t t' q q' hST hF hg a ha
        obtain ⟨gs, hgs, gr, hgr, hj, hj'⟩ := track hST
        have hT : TrackOne ts tt (Departs ts tt b.dv σ) (First3 b.y σ) (.str x) (.int t) (.int t') := by
          rcases sublist_pair_or hj hj' (hv hST.other) with hsub | hsub
          · exact (A.track _ (Dict.mem_of_get? hgs) _ hgr _ _ hsub (g.notSame hm hST.stock)).2
              (g.notExempt hg)
          · exact ((A.track _ (Dict.mem_of_get? hgs) _ hgr _ _ hsub
              (g.notSame hm fun h => hST.stock h.symm)).1 (g.notExempt hg)).2
        have := hT.2 (cont hg) hF _ _ _ (hdep t x (stays hST hg))
          (comes_arrives G hm hone h hdep ha) res0
        simpa using this
      exact (tot3 hST.other (exTrack hST)).imp (fun hF => ⟨hF, dir hST hF.2⟩)
        fun hF => ⟨hF, dir hST' hF.2⟩
    order := by
      intro t t' p x q q' rows rows' m m' hsub hST hgo ht ht' hc hc' hs
      obtain ⟨hO, gs, hgs, gr, hgr, hj, hj'⟩ := coupled hsub hST hgo
      obtain ⟨d, gd, h1, h2, -⟩ := g.jd_get (Runs.of ht hc)
      have hno : ¬ MayOvertake ts (.int t) (.int t') (.str x) := by
        rw [g.mayOvertake hl hST.other ht ht' hc hc']
        exact fun h => h rfl hs
      have ex1 := exTrack hST
      have ex2 := exLine hST.other ht ht' hc hc' hs
      have hiff := (hO (.str p) d (g.prev.2 ⟨t, x, rows, rfl, rfl, ht, .inl ⟨p, m, rfl, hc⟩⟩) h1
        (by rw [h2]; simp) fun gs' hgs' => by
          rw [hgs] at hgs'; cases hgs'; exact ⟨gr, hgr, hj, hj', hv hST.other⟩).1 hno
        (stored hsub ex1) (stored hsub ex2)
      exact both (and_congr_right fun _ => hiff) (tot3 hST.other ex1) (tot3 hST.other ex2)
        (fun h1 h2 => one3 h1.1 h1.2 h2.2) fun h1 h2 => one3 h1.1 h1.2 h2.2
    orderBegins := by
      intro t t' p x q q' rows rows' m row' hsub hST hgo ht ht' hc hfs hcon
      obtain ⟨hO, gs, hgs, gr, hgr, hj, hj'⟩ := coupled hsub hST hgo
      obtain ⟨d, gd, h1, h2, -⟩ := g.jd_get (Runs.of ht hc)
      have hno : ¬ MayOvertake ts (.int t) (.int t') (.str x) := by
        rintro ⟨-, _, pp, -, hpp, -, hnone, -⟩
        exact hnone (prevOf_unique hpp
          (g.prev.2 ⟨t', x, rows', rfl, rfl, ht', .inr ⟨rfl, row', hfs⟩⟩))
      have ex1 := exTrack hST
      have ex2 : Exists3 b.y (.int t) (.int t') (.str p) := by
        rcases hcon with ⟨x2, r1, r2, m1, m2, k1, k2, k3, k4, k5⟩ | ⟨q1, q2, hST2⟩ | hsw
        · exact exLine hST.other k1 k2 k3 k4 k5
        · exact exTrack hST2
        · obtain ⟨e, he, ex, hp⟩ := g.jswitch_listed hcells hsw
          have key : ∀ {t t' : Int}, t ≠ t' → [(Val.int t, "out"), (.int t', "out")] ∈ e.2 →
              Exists3 b.y (.int t) (.int t') (.str p) := by
            intro t t' hne hp
            have ho := has_jswitch P.hy he hp rfl (sp := .str p) (spp := .str p)
              (by rw [ex]; simp [departureStation4switches, Dict.at!_ok.2 get?_pair_fst, bind, Except.bind])
              (by rw [ex]; simp [departureStation4switches, Dict.at!_ok.2 (get?_pair_snd hne), bind, Except.bind])
            rw [ex] at ho
            rcases ho with ⟨-, h, -⟩ | ⟨-, -, h⟩ | ⟨h, -⟩ | ⟨h, -⟩
            · exact absurd rfl h
            · exact h
            · exact absurd rfl h
            · exact absurd rfl h
          rcases hp with hp | hp
          · exact key hST.other hp
          · exact (key hST.other.symm hp).symm
      have hiff := (hO (.str p) d (g.prev.2 ⟨t, x, rows, rfl, rfl, ht, .inl ⟨p, m, rfl, hc⟩⟩) h1
        (by rw [h2]; simp) fun gs' hgs' => by
          rw [hgs] at hgs'; cases hgs'; exact ⟨gr, hgr, hj, hj', hv hST.other⟩).1 hno
        (stored hsub ex1) (stored hsub ex2)
      exact both (and_congr_right fun _ => hiff) (tot3 hST.other ex1) (tot3 hST.other ex2)
        (fun h1 h2 => one3 h1.1 h1.2 h2.2) fun h1 h2 => one3 h1.1 h1.2 h2.2
    orderIn := by
      intro t t' p p' x q q' rows rows' m m' hsub hST hgo ht ht' hc hc' hmo' hsw
      obtain ⟨hO, gs, hgs, gr, hgr, hj, hj'⟩ := coupled hsub hST hgo
      obtain ⟨d, gd, h1, h2, -⟩ := g.jd_get (Runs.of ht hc)
      have hmo : MayOvertake ts (.int t) (.int t') (.str x) :=
        (g.mayOvertake hl hST.other ht ht' hc hc').2 hmo'
      have hent : EnterTogether ts (.int t) (.int t') (.str x) := by
        obtain ⟨e, he, ex, hp⟩ := g.jswitch_listed hcells hsw
        refine ⟨e.2, by rw [← ex]; exact Dict.get?_of_mem g.jswitch_once.1 he, ?_⟩
        rcases hp with hp | hp
        · exact ⟨_, hp, get?_pair_fst, get?_pair_snd hST.other⟩
        · exact ⟨_, hp, get?_pair_snd hST.other.symm, get?_pair_fst⟩
      have hiff := (hO (.str p) d (g.prev.2 ⟨t, x, rows, rfl, rfl, ht, .inl ⟨p, m, rfl, hc⟩⟩) h1
        (by rw [h2]; simp) fun gs' hgs' => by
          rw [hgs] at hgs'; cases hgs'; exact ⟨gr, hgr, hj, hj', hv hST.other⟩).2 hmo hent
      have htot : (t ≠ t' ∧ FirstIn b.y σ (.int t) (.int t') (.str x)) ∨
          (t' ≠ t ∧ FirstIn b.y σ (.int t') (.int t) (.str x)) :=
        (apart _ _ _ _ _ _ _ _ _ hsw ht ht' hc hc' hmo').imp And.left And.left
      exact both (and_congr_right fun _ => hiff) htot (tot3 hST.other (exTrack hST))
        (fun h1 h2 => oneI h1.1 h1.2 h2.2) fun h1 h2 => one3 h1.1 h1.2 h2.2
    bothLeave := by
      intro t t' x hsw
      have key : ∀ {t t' : Int}, t ≠ t' → SwitchFirst ts (First3 b.y σ) (First4 b.y σ) (FirstIn b.y σ)
          (.str x) (.int t) (.str x) (.int t') (.str x) →
          t ≠ t' ∧ First3 b.y σ (.int t) (.int t') (.str x) := by
        intro t t' hne hF
        rcases hF with ⟨-, h, -⟩ | ⟨-, -, h⟩ | ⟨h, -⟩ | ⟨h, -⟩
        · exact absurd rfl h
        · exact ⟨hne, h⟩
        · exact absurd rfl h
        · exact absurd rfl h
      exact (switch_decided G hm hcells h hb hf hsw (.inl ⟨rfl, rfl, hdep t x (leaves hsw)⟩)
        (.inl ⟨rfl, rfl, hdep t' x (leaves hsw.symm)⟩)).imp
        (fun hF => ⟨key hsw.other hF.1, hF.2⟩) fun hF => ⟨key hsw.other.symm hF.1, hF.2⟩
    bothCome := by
      intro t t' p x rows rows' m m' hsw ht ht' hc hc' hs
      have hno : ∀ {t t' : Int}, ¬ MayOvertake ts (.int t) (.int t') (.str x) → t ≠ t' →
          SwitchFirst ts (First3 b.y σ) (First4 b.y σ) (FirstIn b.y σ) (.str x) (.int t) (.str p)
            (.int t') (.str p) → t ≠ t' ∧ First3 b.y σ (.int t) (.int t') (.str p) := by
        intro t t' hno hne hF
        rcases hF with ⟨-, -, h, -⟩ | ⟨-, -, h⟩ | ⟨h, -⟩ | ⟨h, -⟩
        · exact absurd h hno
        · exact ⟨hne, h⟩
        · exact absurd rfl h
        · exact absurd rfl h
      have hmo : ¬ MayOvertake ts (.int t) (.int t') (.str x) := by
        rw [g.mayOvertake hl hsw.other ht ht' hc hc']
        exact fun h => h rfl hs
      exact (switch_decided G hm hcells h hb hf hsw (moments ht hc) (moments ht' hc')).imp
        (fun hF => ⟨hno hmo hsw.other hF.1, hF.2⟩)
        fun hF => ⟨hno (fun h => hmo (mayOvertake_symm h)) hsw.other.symm hF.1, hF.2⟩
    bothComeApart := fun t t' p p' x rows rows' m m' => apart t t' p p' x rows rows' m m'
    cross := by
      intro t t' p x rows m hsw ht hc
      have hpp := (G.serves ht (consecutive_serves hc).1).2
      have hpx := (G.serves ht (consecutive_serves hc).2).2
      have hx : p ≠ x := consecutive_ne (g.data.trains.table ht).1 hc
      have hvs : ∀ {y z : String}, y ≠ z → Val.str y ≠ .str z := fun h e => h (by cases e; rfl)
      refine (switch_decided G hm hcells h hb hf hsw (.inl ⟨rfl, rfl, hdep t x (leaves hsw)⟩)
        (moments ht hc)).imp (fun hF => ⟨⟨hsw.other, hpx, hpp, ?_⟩, hF.2⟩)
        fun hF => ⟨⟨hsw.other.symm, hpp, hpx, ?_⟩, hF.2⟩
      · rcases hF.1 with ⟨h, -⟩ | ⟨h, -⟩ | ⟨-, -, h⟩ | ⟨-, h, -⟩
        · exact absurd h.symm (hvs hx)
        · exact absurd h.symm (hvs hx)
        · exact h
        · exact absurd rfl h
      · rcases hF.1 with ⟨h, -⟩ | ⟨h, -⟩ | ⟨-, -, h⟩ | ⟨-, -, h, -⟩
        · exact absurd h (hvs hx)
        · exact absurd h (hvs hx)
        · exact h
        · exact absurd rfl h }

end

/-- **C71**, exactness: the departure times of the solutions of the problem are those that keep the
rules of the tables, with some precedences of the trains. -/
theorem C71_exact (G : GoodData td st) (hm : AllMeet td) (hta : TurnaroundOK td)
    (hl : LinesClear td) (hcells : SameCells table) (hgo : OppositeGoOn td st)
    (hone : OneStock td st) (h : makeInput td st table t1 r delays = .ok (ts, tt))
    (hb : buildProblem ts tt dmax cat = .ok b) (dep : Int → String → ℚ) :
    (∃ σ, Feasible b σ ∧ ∀ t x, Leaves td t x →
      Departs ts tt b.dv σ (.int t) (.str x) (dep t x)) ↔
    ∃ first against enters,
      TableRules td st table t1 r delays dmax cat ⟨dep, first, against, enters⟩ := by
  constructor
  · rintro ⟨σ, hf, hdep⟩
    exact ⟨_, _, _, rules_of_feasible G hm hl hcells hone h hb hf hdep hgo⟩
  · rintro ⟨first, against, enters, R⟩
    obtain ⟨σ, hf, hd⟩ := C71_complete G hm hta hl hcells h hb R
    exact ⟨σ, hf, fun t x hx => (hd t x _).2 ⟨hx, rfl⟩⟩

end Verif
