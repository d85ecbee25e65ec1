import Verif.Props.TableRulesExact
import Verif.Proofs.Loose
import Verif.Proofs.GenNames
import Verif.Proofs.PlanTree

/-!
# The rules of the tables for values that violate constraints by little
-/

namespace Verif

/-- The rules, each broken by at most `e`: the kind of the rule, the train that goes first, the other one,
and the station. -/
structure LooseRules (td : Trains) (st : Stations) (table : List PathRow) (t1 : String) (r : Int)
    (delays : List (Int × ℚ)) (dmax : ℚ) (π : TablePlan) (e : Why → Int → Int → String → ℚ) :
    Prop where
  one : ∀ t t' x, π.first t t' x → ¬ π.first t' t x
  oneAgainst : ∀ t t' x x', π.against t t' x x' → ¬ π.against t' t x' x
  late : ∀ t x rows a, TableOf td t rows → Leaves td t x →
    Earliest rows t1 r (addedDelay delays t) x a → a ≤ π.dep t x ∧ π.dep t x ≤ a + dmax
  runs : ∀ t p x rows m q, TableOf td t rows → Consecutive rows p x m → q ∈ rows →
    q.station = some x → Leaves td t x →
    π.dep t p + roundIf r (timesOf m).sum + roundIf r (q.passingTime.getD 0) ≤ π.dep t x + e .run t t x
  stock : ∀ t t' p x rows rows' m q v, HandsOn td st t t' x → TableOf td t rows →
    TableOf td t' rows' → Consecutive rows p x m → rows'.head? = some q → q.turnaround = some v →
    π.dep t p + roundIf r (timesOf m).sum + v ≤ π.dep t' x + e .stock t t' x
  following : ∀ t t' x x2 rows rows' m m', t ≠ t' → TableOf td t rows → TableOf td t' rows' →
    Consecutive rows x x2 m → Consecutive rows' x x2 m' → m.map (·.path) = m'.map (·.path) →
    (π.first t t' x ∧ π.dep t x +
      roundIf r ((headwayOf (headwayK x x2) (timesOf m) (timesOf m')).getD 0) ≤
        π.dep t' x + e .follow t t' x) ∨
    (π.first t' t x ∧ π.dep t' x +
      roundIf r ((headwayOf (headwayK x x2) (timesOf m') (timesOf m)).getD 0) ≤
        π.dep t x + e .follow t' t x)
  tracks : ∀ t t' x q q', ShareTrack td t t' x q q' →
    (π.first t t' x ∧ (GoesOnFrom td st t x → ∀ a, StockComes td st t1 r delays π.dep t' x a →
      π.dep t x ≤ a + e .track t t' x)) ∨
    (π.first t' t x ∧ (GoesOnFrom td st t' x → ∀ a, StockComes td st t1 r delays π.dep t x a →
      π.dep t' x ≤ a + e .track t' t x))
  bothLeave : ∀ t t' x, ShareSwitch td table t t' x "out" "out" →
    (π.first t t' x ∧ π.dep t x + 1 ≤ π.dep t' x + e .depart t t' x) ∨
    (π.first t' t x ∧ π.dep t' x + 1 ≤ π.dep t x + e .depart t' t x)
  cross : ∀ t t' p x rows m, ShareSwitch td table t t' x "out" "in" → TableOf td t' rows →
    Consecutive rows p x m →
    (π.against t t' x p ∧ π.dep t x + 1 ≤ π.dep t' p + roundIf r (timesOf m).sum + e .leave t t' x) ∨
    (π.against t' t p x ∧ π.dep t' p + roundIf r (timesOf m).sum + 1 ≤ π.dep t x + e .come t' t x)

/-- the constraint for the rule -/
def keyed : Why → Int → Int → String → CIx → Prop
  | .run, t, t', x, i => t = t' ∧ i = .stay (.int t) (.str x)
  | .stock, t, t', x, i => i = .circ (.int t) (.int t') (.str x)
  | .follow, t, t', x, i => ∃ x2, i = .span (.int t') (.int t) (.str x) x2
  | .track, t, t', x, i => i = .track (.int t) (.int t') (.str x)
  | .leave, t, t', x, i => ∃ p, p ≠ x ∧ i = .switch (.int t') (.int t) (.str x) (.str p) (.str x)
  | .come, t, t', x, i => ∃ p, p ≠ x ∧ i = .switch (.int t') (.int t) (.str x) (.str x) (.str p)
  | .depart, t, t', x, i => i = .switch (.int t') (.int t) (.str x) (.str x) (.str x)
  | .low, _, _, _, _ => False
  | .late, _, _, _, _ => False

/-- a constraint belongs to one rule only -/
theorem keyed_unique {w w' : Why} {t t' u u' : Int} {x y : String} {i : CIx} (h : keyed w t t' x i)
    (h' : keyed w' u u' y i) : w = w' ∧ t = u ∧ t' = u' ∧ x = y := by
  cases w <;> cases w' <;> simp only [keyed] at h h' <;> grind

variable {td : Trains} {st : Stations} {table : List PathRow} {t1 : String} {r : Int}
  {delays : List (Int × ℚ)} {ts : TrainSets} {tt : Timetable} {dmax : ℚ} {cat : Cat} {b : Built}
  {σ : LpVar → ℚ} {E : String → ℚ}

/-- what is known of the constraints that are violated -/
structure AllLoose (E : String → ℚ) (σ : LpVar → ℚ) (ts : TrainSets) (tt : Timetable) (dmax : ℚ) (b : Built) :
    Prop where
  span : AllNear E σ (minimalSpan tt b.dv b.y ts dmax)
  stay : AllNear E σ (minimalStay tt b.dv ts)
  track : AllNear E σ (trackOccupation tt b.dv b.y ts dmax)
  circ : AllNear E σ (rollingStockCirc tt b.dv ts dmax)
  switch : AllNear E σ (switchOccupation tt b.dv b.y ts dmax)

section
variable (G : GoodData td st) (hm : AllMeet td) (hcells : SameCells table)
  (hone : OneStock td st) (h : makeInput td st table t1 r delays = .ok (ts, tt))
  (hb : buildProblem ts tt dmax cat = .ok b) (hadm : Admissible b σ) (hE : ∀ n, 0 ≤ E n)
  (A : AllLoose E σ ts tt dmax b) {dep : Int → String → ℚ}
  (hdep : ∀ t x, Leaves td t x → Departs ts tt b.dv σ (.int t) (.str x) (dep t x))

include G hm hcells h hb hadm hE A in
theorem switch_loose {t t' : Int} {x a a' : String} (hsw : ShareSwitch td table t t' x a a')
    {p pp : Val} {m mp : ℚ}
    (hM : SwitchMoment ts tt (Departs ts tt b.dv σ) (.str x) (.int t) a p m)
    (hM' : SwitchMoment ts tt (Departs ts tt b.dv σ) (.str x) (.int t') a' pp mp) :
    (SwitchFirst ts (First3 b.y σ) (First4 b.y σ) (FirstIn b.y σ) (.str x) (.int t) p (.int t') pp ∧
      m + 1 ≤ mp + E (CIx.switch (.int t') (.int t) (.str x) pp p).name) ∨
    (SwitchFirst ts (First3 b.y σ) (First4 b.y σ) (FirstIn b.y σ) (.str x) (.int t') pp (.int t) p ∧
      mp + 1 ≤ m + E (CIx.switch (.int t) (.int t') (.str x) p pp).name) := by
  have g := gen_of_input G h
  have P := parts hb
  have S := setting P g.namesOK hadm
  -- for one orientation of the list
  have main : ∀ {t t' : Int} {a a' : String} {p pp : Val} {m mp : ℚ}, t ≠ t' → ¬ Paired t t' →
      ∀ e ∈ ts.Jswitch, e.1 = .str x → [(.int t, a), (.int t', a')] ∈ e.2 →
      SwitchMoment ts tt (Departs ts tt b.dv σ) (.str x) (.int t) a p m →
      SwitchMoment ts tt (Departs ts tt b.dv σ) (.str x) (.int t') a' pp mp →
      (SwitchFirst ts (First3 b.y σ) (First4 b.y σ) (FirstIn b.y σ) (.str x) (.int t) p (.int t') pp ∧
        m + 1 ≤ mp + E (CIx.switch (.int t') (.int t) (.str x) pp p).name) ∨
      (SwitchFirst ts (First3 b.y σ) (First4 b.y σ) (FirstIn b.y σ) (.str x) (.int t') pp (.int t) p ∧
        mp + 1 ≤ m + E (CIx.switch (.int t) (.int t') (.str x) p pp).name) := by
    intro t t' a a' p pp m mp hne hst e he ex hp hM hM'
    have hpl := (g.wellFormed.jswitch e he _ hp).2
    have hr := switches_near hE S A.switch he hp (by simpa using hne) (hpl (.int t, a) (by simp))
      (hpl (.int t', a') (by simp)) (g.notSame hm hst) (p := p) (pp := pp) (m := m) (mp := mp) (r := 1)
      (by rw [ex]; exact hM) (by rw [ex]; exact hM') g.res
    rw [ex] at hr
    have d1 := departure_of_moment (pair := [(.int t, a), (.int t', a')]) get?_pair_fst hM
    have d2 := departure_of_moment (pair := [(.int t, a), (.int t', a')]) (get?_pair_snd hne) hM'
    have ho := has_jswitch P.hy he hp rfl (by rw [ex]; exact d1) (by rw [ex]; exact d2)
    rw [ex] at ho
    have tot : SwitchFirst ts (First3 b.y σ) (First4 b.y σ) (FirstIn b.y σ) (.str x) (.int t) p
        (.int t') pp ∨ SwitchFirst ts (First3 b.y σ) (First4 b.y σ) (FirstIn b.y σ) (.str x) (.int t')
        pp (.int t) p := by
      rcases ho with ⟨h1, h2, h3, h4⟩ | ⟨h1, h2, h4⟩ | ⟨h1, h2, h4⟩ | ⟨h1, h2, h3, h4⟩
      · have h3' := (canMO_iff h3).1 rfl
        rcases firstP_total P hadm h4 with h | h
        · exact .inl (.inl ⟨h1, h2, h3', firstIn_iff.2 h⟩)
        · exact .inr (.inl ⟨h1.symm, h1 ▸ h2, mayOvertake_symm h3', firstIn_iff.2 h⟩)
      · have h2' : p = .str x ∨ ¬ MayOvertake ts (.int t) (.int t') (.str x) :=
          h2.imp id fun h => by rw [← canMO_iff h]; simp
        rcases firstP_total P hadm h4 with h | h
        · exact .inl (.inr (.inl ⟨h1, h2', first3_iff.2 h⟩))
        · exact .inr (.inr (.inl ⟨h1.symm, h1 ▸ h2'.imp id fun h h' => h (mayOvertake_symm h'),
            h1 ▸ first3_iff.2 h⟩))
      · rcases firstP_total P hadm h4 with h | h
        · exact .inl (.inr (.inr (.inl ⟨h1, h2, first4_iff.2 h⟩)))
        · exact .inr (.inr (.inr (.inl ⟨Ne.symm h1, h2.symm, first4_iff.2 h⟩)))
      · rcases firstP_total P hadm h4 with h | h
        · exact .inl (.inr (.inr (.inr ⟨h1, h2, h3, firstIn_iff.2 h⟩)))
        · exact .inr (.inr (.inr (.inr ⟨Ne.symm h1, h3, h2, firstIn_iff.2 h⟩)))
    exact tot.imp (fun h => ⟨h, hr.1 h⟩) fun h => ⟨h, hr.2 h⟩
  obtain ⟨e, he, ex, hp | hp⟩ := g.jswitch_listed hcells hsw
  · exact main hsw.other hsw.stock e he ex hp hM hM'
  · exact (main hsw.other.symm (fun h => hsw.stock h.symm) e he ex hp hM' hM).symm

include G hm hcells hone h hb hadm hE A hdep in
/-- the departures and precedences keep the rules of the tables, except for what is given by `E` -/
theorem rules_of_loose (hn : NamesClear td st) {e : Why → Int → Int → String → ℚ}
    (hk : ∀ w t t' x i, i.Good → keyed w t t' x i → E i.name ≤ e w t t' x) :
    LooseRules td st table t1 r delays dmax ⟨dep,
      fun t t' x => t ≠ t' ∧ First3 b.y σ (.int t) (.int t') (.str x),
      fun t t' x x' => t ≠ t' ∧ Plain (.str x) ∧ Plain (.str x') ∧
        First4 b.y σ (.int t) (.int t') (.str x) (.str x'),
      fun t t' x => t ≠ t' ∧ FirstIn b.y σ (.int t) (.int t') (.str x)⟩ e := by
  have g := gen_of_input G h
  have P := parts hb
  have S := setting P g.namesOK hadm
  have hv : ∀ {a b : Int}, a ≠ b → Val.int a ≠ .int b := fun h e => h (by cases e; rfl)
  have hi : ∀ {a : Int}, Val.int a ≠ inKey := by simp [inKey]
  have tot3 : ∀ {t t' : Int} {x : String}, t ≠ t' → Exists3 b.y (.int t) (.int t') (.str x) →
      (t ≠ t' ∧ First3 b.y σ (.int t) (.int t') (.str x)) ∨
      (t' ≠ t ∧ First3 b.y σ (.int t') (.int t) (.str x)) := fun hne he =>
    (firstP_total P hadm he).imp (fun h => ⟨hne, first3_iff.2 h⟩) fun h => ⟨hne.symm, first3_iff.2 h⟩
  have moments : ∀ {t : Int} {rows m : List Row} {p x : String}, TableOf td t rows →
      Consecutive rows p x m → SwitchMoment ts tt (Departs ts tt b.dv σ) (.str x) (.int t) "in" (.str p)
        (dep t p + roundIf r (timesOf m).sum) := fun {t rows m p x} ht hc =>
    .inr ⟨rfl, g.prev.2 ⟨t, x, rows, rfl, rfl, ht, .inl ⟨p, m, rfl, hc⟩⟩, _, _,
      hdep t p (leaves_of_next G ht hc), g.pass t rows p x m ht hc, rfl⟩
  have leaves : ∀ {t t' : Int} {x a : String}, ShareSwitch td table t t' x "out" a → Leaves td t x := by
    intro t t' x a hsw
    have out : ∀ {u u' : Int} {a a' : String}, ∀ e ∈ ts.Jswitch, e.1 = .str x →
        [(Val.int u, a), (.int u', a')] ∈ e.2 → (a = "out" → Leaves td u x) ∧
          (a' = "out" → Leaves td u' x) := by
      intro u u' a a' e he ex hp
      obtain ⟨x', w, w', c, c', rows, rows', e1, e2, -, ht, ht', ha, ha'⟩ := g.jswitch_mem he hp
      rw [ex] at e1
      cases e1
      simp only [List.cons.injEq, Prod.mk.injEq, and_true] at e2
      obtain ⟨⟨i1, rfl⟩, i2, rfl⟩ := e2
      cases i1; cases i2
      constructor
      · rintro rfl
        rcases ha with ⟨i, -⟩ | ⟨-, x1, mid, hc⟩
        · simp at i
        · exact leaves_of_next G ht hc
      · rintro rfl
        rcases ha' with ⟨i, -⟩ | ⟨-, x1, mid, hc⟩
        · simp at i
        · exact leaves_of_next G ht' hc
    obtain ⟨e, he, ex, hp | hp⟩ := g.jswitch_listed hcells hsw
    · exact (out e he ex hp).1 rfl
    · exact (out e he ex hp).2 rfl
  have stays : ∀ {t t' x q q'}, ShareTrack td t t' x q q' → GoesOnFrom td st t x → Leaves td t x := by
    intro t t' x q q' hST hg
    obtain ⟨rows, ht, hq⟩ := hST.row
    refine ⟨q, rows, ht, hq, hST.here, fun hlast => hg x ?_ (List.infix_refl _)⟩
    exact (endsIn_iff G).2 ⟨rows, q, ht, hlast, hST.here⟩
  have cont : ∀ {u : Int} {x : String}, GoesOnFrom td st u x → ∀ k,
      ¬ ContinuedBy ts (.int u) (.str x) k := by
    intro u x hu k hk
    obtain ⟨_, _, _, i1, i2, -, he⟩ := g.continued hm hk
    cases i1; cases i2
    exact hu x he (List.infix_refl _)
  have res0 : ∀ {x : String}, ExtraRes ts tt (.str x) 0 := .inr ⟨by rw [g.noAdd]; simp, rfl⟩
  have good : ∀ {t : Int} {x : String}, Leaves td t x → IsTrain (.int t) ∧ IsStation (.str x) := by
    rintro t x ⟨q, rows, ht, hq, hs, -⟩
    exact ⟨hn.train ht, hn.station G ht ⟨q, hq, hs⟩⟩
  -- trains with a common track
  have track : ∀ {t t' x q q'}, ShareTrack td t t' x q q' →
      ∃ gs, Dict.get? ts.Jtrack (.str x) = some gs ∧ ∃ gr ∈ gs, .int t ∈ gr ∧ .int t' ∈ gr := by
    rintro t t' x q q' hST
    obtain ⟨rows, ht, hq⟩ := hST.row
    obtain ⟨rows', ht', hq'⟩ := hST.row'
    exact g.sameTrack ht ht' hq hq' hST.here hST.here' hST.same hST.station hST.block
  have exTrack : ∀ {t t' x q q'}, ShareTrack td t t' x q q' →
      Exists3 b.y (.int t) (.int t') (.str x) := by
    intro t t' x q q' hST
    obtain ⟨gs, hgs, gr, hgr, hj, hj'⟩ := track hST
    exact hasY3_jtrack' P (Dict.mem_of_get? hgs) hgr hj hj' (hv hST.other)
  have exLine : ∀ {t t' : Int} {rows rows' m m' : List Row} {x x2 : String}, t ≠ t' →
      TableOf td t rows → TableOf td t' rows' → Consecutive rows x x2 m → Consecutive rows' x x2 m' →
      m.map (·.path) = m'.map (·.path) → Exists3 b.y (.int t) (.int t') (.str x) := by
    intro t t' rows rows' m m' x x2 hne ht ht' hc hc' hs
    obtain ⟨d, gs, h1, h2, gr, hgr, hj, hj'⟩ := g.jd_together (Runs.of ht hc)
      (show Runs td t' x x2 (m.map (·.path)) by rw [hs]; exact Runs.of ht' hc')
    exact hasY3_jd' P (Dict.mem_of_get? h1) (Dict.mem_of_get? h2) hgr hj hj' (hv hne)
  have asymm : ∀ {p q : OPath}, ¬ (findP b.y p ≠ .none ∧ findP b.y q ≠ .none) → FirstP b.y σ p q →
      ¬ FirstP b.y σ q p := fun {p q} hnb hF => (firstP_iff_not P hadm hnb (by
    rcases hF with ⟨v, h1, -⟩ | ⟨v, h1, -⟩
    · exact .inl (by rw [h1]; simp)
    · exact .inr (by rw [h1]; simp))).1 hF
  exact {
    one := fun t t' x ⟨hne, h1⟩ ⟨_, h2⟩ => by
      rw [first3_iff] at h1 h2
      exact asymm (noBoth3 g.namesOK P.hy _ hi (hv hne)) h1 h2
    oneAgainst := fun t t' x x' ⟨hne, hx, _, h1⟩ ⟨_, _, _, h2⟩ => by
      rw [first4_iff] at h1 h2
      exact asymm (noBoth4 g.namesOK P.hy hi (plain_ne hx) fun h => hv hne h.1) h1 h2
    late := by
      intro t x rows e ht hlv he
      obtain ⟨e', v, he', hv', hd⟩ := hdep t x hlv
      have he2 := (C70_earliest G h ht hlv).2 he
      rw [he'] at he2
      cases he2
      obtain ⟨l, u⟩ := delay_bounds P.hdv hadm.delays hv'
      simp only [hd]
      exact ⟨by linarith, by linarith⟩
    runs := by
      intro t p x rows m q ht hc hq hs hlv
      obtain ⟨path, hpath, hpo⟩ := (g.prev (j := .int t) (s := .str x) (p := .str p)).2
        ⟨t, x, rows, rfl, rfl, ht, .inl ⟨p, m, rfl, hc⟩⟩
      have hstop : Stop tt (.int t) (.str x) (roundIf r (q.passingTime.getD 0)) := by
        obtain ⟨row, rows', ht', hr, hrs, hrl⟩ := id hlv
        cases ht'.unique ht
        rw [once_unique (G.trains.table ht).1 hq hr hs hrs]
        exact g.stop t x row ⟨rows, ht, hr, hrs, hrl⟩
      have h1 := stay_near (stays_near A.stay (g.mem_J.2 ⟨rows, ht⟩) hpath (prevOn_mem hpo))
        ⟨path, hpath, hpo⟩ (by simp)
        (hdep t p (leaves_of_next G ht hc)) (hdep t x hlv) (g.pass t rows p x m ht hc) hstop
      have h2 := hk .run t t x _ (show (CIx.stay (.int t) (.str x)).Good from good hlv) ⟨rfl, rfl⟩
      exact h1.trans (add_le_add (le_refl _) h2)
    stock := by
      intro t t' p x rows rows' m q v hh ht ht' hc hq hv'
      obtain ⟨ps, h1, h2⟩ := (g.round_iff hm).2 ⟨x, t, t', rfl, rfl, rfl, hh⟩
      obtain ⟨bl, hmeet, hbl⟩ := hh.2.2.1
      obtain ⟨rows2, row, ht2, hhead, hrs⟩ := g.starts_leaves hmeet.2 hbl
      cases ht2.unique ht'
      rw [hq] at hhead
      cases hhead
      have h3 := circ_near hE S (circs_near A.circ (Dict.mem_of_get? h1) h2)
        (g.prev.2 ⟨t, x, rows, rfl, rfl, ht, .inl ⟨p, m, rfl, hc⟩⟩)
        (hdep t p (leaves_of_next G ht hc)) (hdep t' x ⟨_, hrs⟩) (g.pass t rows p x m ht hc)
        (g.prep t' x q v hrs hv')
      have hx := good (show Leaves td t' x from ⟨_, hrs⟩)
      have h4 := hk .stock t t' x _ (show (CIx.circ (.int t) (.int t') (.str x)).Good from
        ⟨hn.train ht, hx⟩) rfl
      exact h3.trans (add_le_add (le_refl _) h4)
    following := by
      intro t t' x x2 rows rows' m m' hne ht ht' hc hc' hs
      obtain ⟨d, gs, h1, h2, gr, hgr, hj, hj'⟩ := g.jd_together (Runs.of ht hc)
        (show Runs td t' x x2 (m.map (·.path)) by rw [hs]; exact Runs.of ht' hc')
      obtain ⟨w, hw⟩ := g.headway' hne (Runs.of ht hc) (Runs.of ht' hc')
      obtain ⟨w', hw'⟩ := g.headway' hne.symm (Runs.of ht' hc') (Runs.of ht hc)
      rw [tauHeadway_ok] at hw hw'
      have d1 := hdep t x (leaves_of_next G ht hc)
      have d2 := hdep t' x (leaves_of_next G ht' hc')
      have e1 := g.headwaySame hne ht ht' hc hc' hs hw
      have e2 := g.headwaySame hne.symm ht' ht hc' hc hs.symm hw'
      have s1 := hn.station G ht (consecutive_serves hc).1
      have s2 := hn.station G ht (consecutive_serves hc).2
      refine (tot3 hne (exLine hne ht ht' hc hc' hs)).imp (fun hF => ⟨hF, ?_⟩) fun hF => ⟨hF, ?_⟩
      · rw [← e1]
        have h3 := span_near hE S hi (hv hne) (spans_near A.span (Dict.mem_of_get? h1)
          (Dict.mem_of_get? h2) hgr hj hj' (hv hne)) hF.2 d1 d2 hw
        have h4 := hk .follow t t' x _ (show (CIx.span (.int t') (.int t) (.str x) (.str x2)).Good from
          ⟨hn.train ht', hn.train ht, s1, s2⟩) ⟨_, rfl⟩
        exact h3.trans (add_le_add (le_refl _) h4)
      · rw [← e2]
        have h3 := span_near hE S hi (hv hF.1) (spans_near A.span (Dict.mem_of_get? h1)
          (Dict.mem_of_get? h2) hgr hj' hj (hv hF.1)) hF.2 d2 d1 hw'
        have h4 := hk .follow t' t x _ (show (CIx.span (.int t) (.int t') (.str x) (.str x2)).Good from
          ⟨hn.train ht, hn.train ht', s1, s2⟩) ⟨_, rfl⟩
        exact h3.trans (add_le_add (le_refl _) h4)
    tracks := by
      intro t t' x q q' hST
      have hST' : ShareTrack td t' t x q' q := ⟨hST.other.symm, fun h => hST.stock h.symm, hST.row',
        hST.row, hST.here', hST.here, hST.same.symm, hST.station, hST.same ▸ hST.block⟩
      -- one direction
      have dir : ∀ {t t' q q'}, ShareTrack td t t' x q q' →
          First3 b.y σ (.int t) (.int t') (.str x) → GoesOnFrom td st t x →
          ∀ a, StockComes td st t1 r delays dep t' x a → dep t x ≤ a + e .track t t' x := by
        intro t t' q q' hST hF hg a ha
        obtain ⟨gs, hgs, gr, hgr, hj, hj'⟩ := track hST
        have h3 := track_near hE S hi (hv hST.other) (cont hg) (tracks_near A.track
          (Dict.mem_of_get? hgs) hgr hj hj' (hv hST.other) (g.notSame hm hST.stock) (g.notExempt hg))
          hF (hdep t x (stays hST hg)) (comes_arrives G hm hone h hdep ha) res0
        obtain ⟨rows', ht', -⟩ := hST.row'
        have hx := good (stays hST hg)
        have h4 := hk .track t t' x _ (show (CIx.track (.int t) (.int t') (.str x)).Good from
          ⟨hx.1, hn.train ht', hx.2⟩) rfl
        rw [add_zero] at h3
        exact h3.trans (add_le_add (le_refl _) h4)
      exact (tot3 hST.other (exTrack hST)).imp (fun hF => ⟨hF, dir hST hF.2⟩)
        fun hF => ⟨hF, dir hST' hF.2⟩
    bothLeave := by
      intro t t' x hsw
      have key : ∀ {t t' : Int}, t ≠ t' → SwitchFirst ts (First3 b.y σ) (First4 b.y σ) (FirstIn b.y σ)
          (.str x) (.int t) (.str x) (.int t') (.str x) →
          t ≠ t' ∧ First3 b.y σ (.int t) (.int t') (.str x) := by
        intro t t' hne hF
        rcases hF with ⟨-, h, -⟩ | ⟨-, -, h⟩ | ⟨h, -⟩ | ⟨h, -⟩
        · exact absurd rfl h
        · exact ⟨hne, h⟩
        · exact absurd rfl h
        · exact absurd rfl h
      have g1 := good (leaves hsw)
      have g2 := good (leaves hsw.symm)
      have k1 := hk .depart t t' x _ (show (CIx.switch (.int t') (.int t) (.str x) (.str x)
        (.str x)).Good from ⟨g2.1, g1.1, g1.2, g1.2, g1.2⟩) rfl
      have k2 := hk .depart t' t x _ (show (CIx.switch (.int t) (.int t') (.str x) (.str x)
        (.str x)).Good from ⟨g1.1, g2.1, g1.2, g1.2, g1.2⟩) rfl
      exact (switch_loose G hm hcells h hb hadm hE A hsw (.inl ⟨rfl, rfl, hdep t x (leaves hsw)⟩)
        (.inl ⟨rfl, rfl, hdep t' x (leaves hsw.symm)⟩)).imp
        (fun hF => ⟨key hsw.other hF.1, hF.2.trans (add_le_add (le_refl _) k1)⟩)
        fun hF => ⟨key hsw.other.symm hF.1, hF.2.trans (add_le_add (le_refl _) k2)⟩
    cross := by
      intro t t' p x rows m hsw ht hc
      have hpp := (G.serves ht (consecutive_serves hc).1).2
      have hpx := (G.serves ht (consecutive_serves hc).2).2
      have hx : p ≠ x := consecutive_ne (g.data.trains.table ht).1 hc
      have hvs : ∀ {y z : String}, y ≠ z → Val.str y ≠ .str z := fun h e => h (by cases e; rfl)
      have g1 := good (leaves hsw)
      have s1 := hn.station G ht (consecutive_serves hc).1
      have k1 := hk .leave t t' x _ (show (CIx.switch (.int t') (.int t) (.str x) (.str p)
        (.str x)).Good from ⟨hn.train ht, g1.1, g1.2, s1, g1.2⟩) ⟨p, hx, rfl⟩
      have k2 := hk .come t' t x _ (show (CIx.switch (.int t) (.int t') (.str x) (.str x)
        (.str p)).Good from ⟨g1.1, hn.train ht, g1.2, g1.2, s1⟩) ⟨p, hx, rfl⟩
      refine (switch_loose G hm hcells h hb hadm hE A hsw (.inl ⟨rfl, rfl, hdep t x (leaves hsw)⟩)
        (moments ht hc)).imp
        (fun hF => ⟨⟨hsw.other, hpx, hpp, ?_⟩, hF.2.trans (add_le_add (le_refl _) k1)⟩)
        fun hF => ⟨⟨hsw.other.symm, hpp, hpx, ?_⟩, hF.2.trans (add_le_add (le_refl _) k2)⟩
      · rcases hF.1 with ⟨h, -⟩ | ⟨h, -⟩ | ⟨-, -, h⟩ | ⟨-, h, -⟩
        · exact absurd h.symm (hvs hx)
        · exact absurd h.symm (hvs hx)
        · exact h
        · exact absurd rfl h
      · rcases hF.1 with ⟨h, -⟩ | ⟨h, -⟩ | ⟨-, -, h⟩ | ⟨-, -, h, -⟩
        · exact absurd h (hvs hx)
        · exact absurd h (hvs hx)
        · exact h
        · exact absurd rfl h }

end

end Verif
