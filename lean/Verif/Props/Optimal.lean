import Verif.Props.TableRulesExact
import Verif.Props.Objective

/-!
# C72: the optimum of the problem is the best timetable
-/

namespace Verif

variable {td : Trains} {st : Stations} {table : List PathRow} {t1 : String} {r : Int}
  {delays : List (Int × ℚ)} {ts : TrainSets} {tt : Timetable} {dmax : ℚ} {cat : Cat} {b : Built}
  {σ : LpVar → ℚ}

/-- `x` is the last station that train `t` leaves -/
def LastLeft (td : Trains) (t : Int) (x : String) : Prop :=
  ∃ pre q post, TableOf td t (pre ++ q :: post) ∧ q.station = some x ∧ post ≠ [] ∧
    ∀ q' ∈ post.dropLast, q'.station = none

/-- What train `t` adds to the sum of delays: its delay in the last station that it leaves, times 1 for
regional, 1.5 for fast and 1.75 for express trains, and times 0 for the trains taken for shunting
trains. -/
def CountedDelay (td : Trains) (t1 : String) (r : Int) (delays : List (Int × ℚ))
    (dep : Int → String → ℚ) (t : Int) (c : ℚ) : Prop :=
  ∃ info rows ty w x e, Dict.get? td t = some (info, rows) ∧ TypeOf info ty ∧
    TypeWeight 1 (3/2) (7/4) ty w ∧ LastLeft td t x ∧
    Earliest rows t1 r (addedDelay delays t) x e ∧
    ((TakenForShunting td t ∧ c = 0) ∨ (¬ TakenForShunting td t ∧ c = w * (dep t x - e)))

theorem LastLeft.leaves (G : GoodData td st) {t : Int} {x : String} (h : LastLeft td t x) :
    Leaves td t x := by
  obtain ⟨pre, q, post, ht, hs, hp, -⟩ := h
  refine ⟨q, _, ht, by simp, hs, fun hl => ?_⟩
  obtain ⟨init, hinit⟩ := List.getLast?_eq_some_iff.1 hl
  obtain ⟨-, -, h3⟩ := once_split (G.trains.table ht).1 rfl hinit hs hs
  exact hp h3

theorem lastServed_iff (G : GoodData td st) {skip : Dict Int String}
    (hskip : getSkipStations td = .ok skip) {t : Int} {rows : List Row} (ht : TableOf td t rows)
    {x : String} : LastServed (Dict.get? skip t) rows x ↔ LastLeft td t x := by
  have hsk := skip_get? hskip G.trains.keys
  have ho := (G.trains.table ht).1
  constructor
  · rintro ⟨pre, q, post, rfl, hs, hne, hall⟩
    have hpost : post ≠ [] := by
      rintro rfl
      exact hne ((hsk t x).2 ⟨_, q, ht, by simp, hs⟩)
    refine ⟨pre, q, post, ht, hs, hpost, fun q' hq' => ?_⟩
    rcases hall q' (List.mem_of_mem_dropLast hq') with h | ⟨h1, h2⟩
    · exact h
    · obtain ⟨n, hn⟩ := Option.isSome_iff_exists.1 h1
      rw [hn] at h2
      obtain ⟨rows', l, ht', hl, hls⟩ := (hsk t n).1 hn
      cases ht.unique ht'
      obtain ⟨init, hinit⟩ := List.getLast?_eq_some_iff.1 hl
      obtain ⟨A, B, hAB⟩ := List.append_of_mem hq'
      have hd := List.dropLast_concat_getLast hpost
      rw [hAB] at hd
      have e : pre ++ q :: post = (pre ++ q :: A) ++ q' :: (B ++ [post.getLast hpost]) := by
        conv_lhs => rw [← hd]
        simp
      obtain ⟨-, -, h3⟩ := once_split ho e hinit h2 hls
      simp at h3
  · rintro ⟨pre, q, post, ht', hs, hpost, hall⟩
    cases ht.unique ht'
    refine ⟨pre, q, post, rfl, hs, fun h => ?_, fun q' hq' => ?_⟩
    · obtain ⟨rows', l, ht', hl, hls⟩ := (hsk t x).1 h
      cases ht.unique ht'
      obtain ⟨init, hinit⟩ := List.getLast?_eq_some_iff.1 hl
      obtain ⟨-, -, h3⟩ := once_split ho rfl hinit hs hls
      exact hpost h3
    · rw [← List.dropLast_concat_getLast hpost, List.mem_append, List.mem_singleton] at hq'
      rcases hq' with hq' | rfl
      · exact .inl (hall q' hq')
      · cases hst : (post.getLast hpost).station with
        | none => exact .inl rfl
        | some n =>
          have := (hsk t n).2 ⟨_, post.getLast hpost, ht, by
            rw [List.getLast?_append_of_ne_nil _ (by simp), List.getLast?_cons,
              List.getLast?_eq_some_getLast hpost]; rfl, hst⟩
          exact .inr ⟨by rw [this]; rfl, this.symm⟩

/-- the weights -/
theorem weights_input (G : GoodData td st) (h : makeInput td st table t1 r delays = .ok (ts, tt)) :
    (∀ t s w, Dict.get? tt.penaltyWeights (key2 (.int t) (.str s)) = some w ↔
      ∃ info rows ty w0, Dict.get? td t = some (info, rows) ∧ TypeOf info ty ∧
        TypeWeight 1 (3/2) (7/4) ty w0 ∧ LastLeft td t s ∧
        w = weightOf (TakenForShunting td) 0 t w0) ∧
    ∀ t rows, TableOf td t rows →
      ∃! s, ∃ w, Dict.get? tt.penaltyWeights (key2 (.int t) (.str s)) = some w := by
  unfold makeInput at h
  obtain ⟨skip, hskip, h⟩ := bind_ok h
  obtain ⟨ts', -, h⟩ := bind_ok h
  obtain ⟨taus, -, h⟩ := bind_ok h
  obtain ⟨tt', htt, h⟩ := bind_ok h
  cases h
  unfold makeTimetable at htt
  obtain ⟨ic, -, htt⟩ := bind_ok htt
  obtain ⟨pw, hpw, htt⟩ := bind_ok htt
  obtain ⟨sc, -, htt⟩ := bind_ok htt
  cases htt
  obtain ⟨h1, h2⟩ := C40_computed td G.trains.keys G.trains.once skip _ _ _ _ pw hpw
  constructor
  · intro t s w
    rw [h1]
    constructor
    · rintro ⟨t', info, rows, ty, w0, s', hg, hty, hw, hl, hk, hv⟩
      obtain ⟨rfl, rfl⟩ := C52_intTrains_partial.1 _ _ _ _ hk
      exact ⟨info, rows, ty, w0, hg, hty, hw, (lastServed_iff G hskip ⟨info, hg⟩).1 hl, hv⟩
    · rintro ⟨info, rows, ty, w0, hg, hty, hw, hl, hv⟩
      exact ⟨t, info, rows, ty, w0, s, hg, hty, hw, (lastServed_iff G hskip ⟨info, hg⟩).2 hl, rfl, hv⟩
  · intro t rows ht
    obtain ⟨s, hs, hu⟩ := h2 t rows ht
    have hi : ∀ k, Dict.has pw k = true ↔ ∃ w, Dict.get? pw k = some w := by
      intro k
      rw [← Option.isSome_iff_exists]
      rfl
    exact ⟨s, (hi _).1 hs, fun s' hs' => hu s' ((hi _).2 hs')⟩

theorem typeWeight_unique {a b c w w' : ℚ} {ty : String} (h : TypeWeight a b c ty w)
    (h' : TypeWeight a b c ty w') : w = w' := by
  have h1 : ∀ ty ∈ ["KS - Os", "PR - R", "KS - OsP"], ty ∉ ["IC - TLK", "IC - IC"] ∧
      ty ∉ ["IC - EIP", "IC - EIC"] := by decide +kernel
  have h2 : ∀ ty ∈ ["IC - TLK", "IC - IC"], ty ∉ ["IC - EIP", "IC - EIC"] := by decide +kernel
  rcases h with ⟨k, rfl⟩ | ⟨k, rfl⟩ | ⟨k, rfl⟩ <;> rcases h' with ⟨k', rfl⟩ | ⟨k', rfl⟩ | ⟨k', rfl⟩
  · rfl
  · exact absurd k' (h1 _ k).1
  · exact absurd k' (h1 _ k).2
  · exact absurd k (h1 _ k').1
  · rfl
  · exact absurd k' (h2 _ k)
  · exact absurd k (h1 _ k').2
  · exact absurd k (h2 _ k')
  · rfl

theorem sum_single {α : Type} {l : List α} (hl : l.Nodup) {f : α → ℚ} {x : α} (hx : x ∈ l)
    (h : ∀ y ∈ l, y ≠ x → f y = 0) : (l.map f).sum = f x := by
  induction l with
  | nil => cases hx
  | cons a l ih =>
    obtain ⟨ha, hl⟩ := List.nodup_cons.1 hl
    rw [List.map_cons, List.sum_cons]
    rcases List.mem_cons.1 hx with rfl | hx
    · have : (l.map f).sum = 0 := by
        apply List.sum_eq_zero
        intro y hy
        obtain ⟨z, hz, rfl⟩ := List.mem_map.1 hy
        exact h z (List.mem_cons_of_mem _ hz) fun e => ha (e ▸ hz)
      rw [this, add_zero]
    · rw [h a List.mem_cons_self fun e => ha (e ▸ hx), zero_add]
      exact ih hl hx fun y hy => h y (List.mem_cons_of_mem _ hy)

theorem sum_flatMap_map {α β : Type} (l : List α) (g : α → List β) (f : β → ℚ) :
    ((l.flatMap g).map f).sum = (l.map fun a => ((g a).map f).sum).sum := by
  induction l with
  | nil => rfl
  | cons a l ih => simp [List.flatMap_cons, ih]

section
variable (G : GoodData td st) (hm : AllMeet td)
  (h : makeInput td st table t1 r delays = .ok (ts, tt)) (hb : buildProblem ts tt dmax cat = .ok b)
include G h

/-- what a train adds is determined -/
theorem counted_exists (dep : Int → String → ℚ) {t : Int} (ht : t ∈ Dict.keys td) :
    ∃! c, CountedDelay td t1 r delays dep t c := by
  obtain ⟨⟨info, rows⟩, hg⟩ := Option.isSome_iff_exists.1 ((Dict.get?_isSome td t).2 ht)
  obtain ⟨h1, h2⟩ := weights_input G h
  obtain ⟨s, ⟨w, hw⟩, hus⟩ := h2 t rows ⟨info, hg⟩
  obtain ⟨info', rows', ty, w0, hg', hty, hw0, hl, hwo⟩ := (h1 t s w).1 hw
  rw [hg] at hg'
  cases hg'
  obtain ⟨e, he, hu⟩ := C70_found G h ⟨info, hg⟩ (hl.leaves G)
  classical
  refine ⟨if TakenForShunting td t then 0 else w0 * (dep t s - e),
    ⟨info, rows, ty, w0, s, e, hg, hty, hw0, hl, he, ?_⟩, ?_⟩
  · split
    · exact .inl ⟨‹_›, rfl⟩
    · exact .inr ⟨‹_›, rfl⟩
  · rintro c ⟨info', rows', ty', w', s', e', hg', hty', hw', hl', he', hc⟩
    rw [hg] at hg'
    cases hg'
    rcases hc with ⟨hT, rfl⟩ | ⟨hT, rfl⟩
    · rw [if_pos hT]
    · rw [if_neg hT]
      have hs : s' = s := hus s' ⟨_, (h1 t s' (weightOf (TakenForShunting td) 0 t w')).2
        ⟨info, rows, ty', w', hg, hty', hw', hl', rfl⟩⟩
      subst hs
      rw [hu e' he']
      obtain ⟨_, e1⟩ := hty
      obtain ⟨_, e2⟩ := hty'
      rw [e1] at e2
      cases e2
      rw [typeWeight_unique hw0 hw']

theorem counted_all (dep : Int → String → ℚ) :
    ∃! cs, List.Forall₂ (CountedDelay td t1 r delays dep) (Dict.keys td) cs := by
  have key : ∀ l : List Int, (∀ t ∈ l, t ∈ Dict.keys td) →
      ∃! cs, List.Forall₂ (CountedDelay td t1 r delays dep) l cs := by
    intro l
    induction l with
    | nil => exact fun _ => ⟨[], .nil, fun cs hcs => by cases hcs; rfl⟩
    | cons t l ih =>
      intro hl
      obtain ⟨cs, hcs, hu⟩ := ih fun t ht => hl t (List.mem_cons_of_mem _ ht)
      obtain ⟨c, hc, huc⟩ := counted_exists G h dep (hl t List.mem_cons_self)
      refine ⟨c :: cs, .cons hc hcs, fun cs' h' => ?_⟩
      cases h' with
      | cons a b => rw [huc _ a, hu _ b]
  exact key _ fun _ h => h

include hb
/-- **C72**, the objective: it is the sum of what the trains add, over `d_max`. -/
theorem C72_objective {dep : Int → String → ℚ}
    (hdep : ∀ t x, Leaves td t x → Departs ts tt b.dv σ (.int t) (.str x) (dep t x)) {cs : List ℚ}
    (hcs : List.Forall₂ (CountedDelay td t1 r delays dep) (Dict.keys td) cs) :
    b.prob.objective.eval σ = cs.sum / dmax := by
  have g := gen_of_input G h
  let d : Val → Val → ℚ := fun j s => match delayAt b.dv j s with
    | .ok v => σ v
    | .error _ => 0
  have hd : Delays b.dv σ d := by
    intro j s
    constructor
    · intro v hv
      simp only [d, hv]
    · intro hno
      simp only [d]
      cases hv : delayAt b.dv j s with
      | ok v => exact absurd hv (hno v)
      | error e => rfl
  obtain ⟨h1, h2⟩ := weights_input G h
  rw [(C17_objective hb hd).1]
  congr 1
  unfold TotalDelay Calls
  rw [g.J, sum_flatMap_map, List.map_map]
  -- one train
  have one : ∀ t c, t ∈ Dict.keys td → CountedDelay td t1 r delays dep t c →
      (((((Dict.get? ts.paths (.int t)).getD []).map fun s => (Val.int t, s)).map fun p =>
        Weight tt p.1 p.2 * d p.1 p.2).sum) = c := by
    rintro t c - ⟨info, rows, ty, w, x, e, hg, hty, hw, hl, he, hc⟩
    have ht : TableOf td t rows := ⟨info, hg⟩
    rw [g.path_some ht, Option.getD_some, List.map_map, List.map_map]
    have hserve : Serves rows x := by
      obtain ⟨⟨rows', ht', hs⟩, -⟩ := (leaves_iff G).1 (hl.leaves G)
      cases ht.unique ht'
      exact hs
    have hwx := (h1 t x _).2 ⟨info, rows, ty, w, hg, hty, hw, hl, rfl⟩
    rw [sum_single (x := x) (by
      have := (G.trains.table ht).1
      exact this) (mem_stations.2 hserve) ?_]
    · simp only [Function.comp, strKey]
      unfold Weight
      rw [hwx, Option.getD_some]
      obtain ⟨e', v, he', hv, hde⟩ := hdep t x (hl.leaves G)
      have he2 := (C70_earliest G h ht (hl.leaves G)).2 he
      rw [he'] at he2
      cases he2
      simp only [d, hv]
      unfold weightOf
      rcases hc with ⟨hT, rfl⟩ | ⟨hT, rfl⟩
      · rw [if_pos hT, zero_mul]
      · rw [if_neg hT, hde]; ring
    · intro y hy hne
      simp only [Function.comp, strKey]
      unfold Weight
      obtain ⟨s, -, hus⟩ := h2 t rows ht
      cases hwy : Dict.get? tt.penaltyWeights (key2 (.int t) (.str y)) with
      | none => simp
      | some w' => exact absurd ((hus y ⟨_, hwy⟩).trans (hus x ⟨_, hwx⟩).symm) hne
  have sum : ∀ l cs, (∀ t ∈ l, t ∈ Dict.keys td) →
      List.Forall₂ (CountedDelay td t1 r delays dep) l cs →
      (l.map ((fun j => ((((Dict.get? ts.paths j).getD []).map fun s => (j, s)).map fun p =>
        Weight tt p.1 p.2 * d p.1 p.2).sum) ∘ intKey)).sum = cs.sum := by
    intro l cs hl hF
    induction hF with
    | nil => rfl
    | cons a _ ih =>
      rw [List.map_cons, List.sum_cons, List.sum_cons,
        ih fun t ht => hl t (List.mem_cons_of_mem _ ht)]
      congr 1
      exact one _ _ (hl _ List.mem_cons_self) a
  exact sum _ _ (fun _ h => h) hcs

include hm
/-- in every solution the trains depart where they leave -/
theorem departs_exist (σ : LpVar → ℚ) : ∃ dep : Int → String → ℚ,
    ∀ t x, Leaves td t x → Departs ts tt b.dv σ (.int t) (.str x) (dep t x) := by
  have g := gen_of_input G h
  have : ∀ t x, ∃ d, Leaves td t x → Departs ts tt b.dv σ (.int t) (.str x) d := by
    intro t x
    by_cases hl : Leaves td t x
    · obtain ⟨e, he⟩ := g.edt hl
      obtain ⟨v, hv⟩ := g.delayAt hm (parts hb).hdv hl
      exact ⟨_, fun _ => ⟨e, v, he, hv, rfl⟩⟩
    · exact ⟨0, fun h => absurd h hl⟩
  choose dep hdep using this
  exact ⟨dep, hdep⟩

/-- **C72.** A solution is optimal exactly when no timetable that keeps the rules of the tables has a
smaller sum of delays. -/
theorem C72_optimal (hta : TurnaroundOK td) (hl : LinesClear td) (hcells : SameCells table)
    (hgo : OppositeGoOn td st) (hone : OneStock td st) (hd : 0 < dmax) {dep : Int → String → ℚ}
    (hdep : ∀ t x, Leaves td t x → Departs ts tt b.dv σ (.int t) (.str x) (dep t x)) :
    (∀ σ', Feasible b σ' → b.prob.objective.eval σ ≤ b.prob.objective.eval σ') ↔
    ∀ π cs cs', TableRules td st table t1 r delays dmax cat π →
      List.Forall₂ (CountedDelay td t1 r delays dep) (Dict.keys td) cs →
      List.Forall₂ (CountedDelay td t1 r delays π.dep) (Dict.keys td) cs' → cs.sum ≤ cs'.sum := by
  constructor
  · intro hopt π cs cs' R hcs hcs'
    obtain ⟨σ', hf', hd'⟩ := C71_complete G hm hta hl hcells h hb R
    have := hopt σ' hf'
    rw [C72_objective G h hb hdep hcs,
      C72_objective G h hb (fun t x hx => (hd' t x _).2 ⟨hx, rfl⟩) hcs'] at this
    exact (div_le_div_iff_of_pos_right hd).1 this
  · intro hbest σ' hf'
    obtain ⟨dep', hdep'⟩ := departs_exist G hm h hb σ'
    have R := rules_of_feasible G hm hl hcells hone h hb hf' hdep' hgo
    obtain ⟨cs, hcs, -⟩ := counted_all G h dep
    obtain ⟨cs', hcs', -⟩ := counted_all G h dep'
    rw [C72_objective G h hb hdep hcs, C72_objective G h hb hdep' hcs']
    exact (div_le_div_iff_of_pos_right hd).2 (hbest _ cs cs' R hcs hcs')

end

/-! ## The hypotheses -/

theorem oneStock_of_numbers (h : ∀ n ∈ Dict.keys td, 10 * n + 9 ∈ Dict.keys td →
    10 * (10 * n + 9) + 9 ∉ Dict.keys td) : OneStock td st := by
  rintro t0 t0' t x ⟨h1, h2, -, h3⟩ ⟨h1', h2', -, h3'⟩
  rcases h3 with h3 | ⟨h3, -⟩ <;> rcases h3' with h3' | ⟨h3', -⟩
  · rw [h3, h3']
  · subst h3 h3'
    exact absurd h1 (h _ h1' h2)
  · subst h3 h3'
    exact absurd h1' (h _ h1 h2)
  · omega

theorem opposite_of_check (ho : ∀ e ∈ td, OnceEach e.2.2) (ss : List String)
    (hs : ∀ e ∈ td, ∀ s ∈ trainImportantStations e.2.2, s ∈ ss)
    {P : String → String → Int → Int → Prop}
    (h : ∀ s ∈ ss, ∀ s' ∈ ss, ∀ t ∈ Dict.keys td, ∀ t' ∈ Dict.keys td, nextOf td s t = some s' →
      nextOf td s' t' = some s → betweenOf td s s' t = (betweenOf td s' s t').reverse → P s s' t t')
    {s s' : String} {t t' : Int} (hop : Opposite td s s' t t') : P s s' t t' := by
  obtain ⟨bl, -, hr, hr'⟩ := hop
  obtain ⟨rows, mid, ht, hc, -⟩ := id hr
  obtain ⟨rows', mid', ht', -⟩ := id hr'
  obtain ⟨info, hmem⟩ := ht.mem
  have hsv := consecutive_serves hc
  exact h s (hs _ hmem s (mem_stations.2 hsv.1)) s' (hs _ hmem s' (mem_stations.2 hsv.2)) t
    (table_key ht) t' (table_key ht') ((nextOf_iff ho).2 ⟨_, hr⟩) ((nextOf_iff ho).2 ⟨_, hr'⟩)
    (by rw [betweenOf_eq ho hr, betweenOf_eq ho hr', List.reverse_reverse])

theorem Shuttle.oneStock : OneStock Shuttle.trains Shuttle.stations :=
  oneStock_of_numbers (by decide +kernel)

theorem Shuttle.oppositeGoOn : OppositeGoOn Shuttle.trains Shuttle.stations := by
  have hg : GoesOn Shuttle.trains Shuttle.stations "B" "C" 19 :=
    ⟨fun he => endsOnly_of_check (P := (· ≠ "B")) (by decide +kernel) he rfl,
      .inl (before_asymm (by decide +kernel) ⟨["A"], [], [], rfl⟩)⟩
  intro x x2 t t' hop
  rcases opposite_of_check (P := fun x x2 t t' => (x = "B" ∧ x2 = "C" ∧ t' = 19) ∨
    (x = "C" ∧ x2 = "B" ∧ t = 19)) (by unfold OnceEach; decide +kernel) ["A", "B", "C"]
    (by decide +kernel) (by decide +kernel) hop with ⟨rfl, rfl, rfl⟩ | ⟨rfl, rfl, rfl⟩
  · exact .inl hg
  · exact .inr hg

theorem Shuttle.cells : SameCells Shuttle.table := by
  unfold SameCells Joins
  intro row hr row' hr' a b h h'
  simp only [Shuttle.table, List.mem_cons, List.not_mem_nil, or_false] at hr hr'
  rcases hr with rfl | rfl | rfl | rfl | rfl | rfl | rfl <;>
    rcases hr' with rfl | rfl | rfl | rfl | rfl | rfl | rfl <;> simp_all <;> aesop

/-- the hypotheses of `C71_exact` and `C72_optimal`, with a solution; its departures keep the rules -/
example : GoodData Shuttle.trains Shuttle.stations ∧ AllMeet Shuttle.trains ∧
    TurnaroundOK Shuttle.trains ∧ LinesClear Shuttle.trains ∧ SameCells Shuttle.table ∧
    OppositeGoOn Shuttle.trains Shuttle.stations ∧ OneStock Shuttle.trains Shuttle.stations ∧
    ∃ ts tt b, makeInput Shuttle.trains Shuttle.stations Shuttle.table "12:00" 0 [(1, 3)] = .ok (ts, tt) ∧
      buildProblem ts tt 20 .integer = .ok b ∧ Feasible b Shuttle.plan ∧
      ∃ π, TableRules Shuttle.trains Shuttle.stations Shuttle.table "12:00" 0 [(1, 3)] 20 .integer π ∧
        π.dep 1 "B" = 9 ∧ π.dep 3 "B" = 18 ∧ π.dep 19 "C" = 25 := by
  obtain ⟨ts, tt, b, h, hb, hf, hd⟩ := Shuttle.departures
  obtain ⟨dep, hdep⟩ := departs_exist Shuttle.good Shuttle.meet h hb Shuttle.plan
  have R := rules_of_feasible Shuttle.good Shuttle.meet Shuttle.lines Shuttle.cells Shuttle.oneStock h
    hb hf hdep Shuttle.oppositeGoOn
  have lv : ∀ {t x d}, Departs ts tt b.dv Shuttle.plan (.int t) (.str x) d →
      dep t x = d := by
    intro t x d hd
    obtain ⟨e, v, he, hv, -⟩ := id hd
    obtain ⟨t', x', e1, e2, hl⟩ := (gen_of_input Shuttle.good h).leaves_of_delay
      ((delayVariables_find (parts hb).hdv).1 (delayAt_ok.1 hv)).1
    cases e1; cases e2
    exact (hdep t x hl).unique hd
  exact ⟨Shuttle.good, Shuttle.meet, Shuttle.turnaround, Shuttle.lines, Shuttle.cells,
    Shuttle.oppositeGoOn, Shuttle.oneStock, ts, tt, b, h, hb, hf, _, R, lv (hd _ _ _ (by simp)),
    lv (hd _ _ _ (by simp)), lv (hd _ _ _ (by simp))⟩

/-- the rules exclude something: trains 1 and 3 cannot leave `B` for `C` at the same time -/
example {π : TablePlan} {t1 : String} {delays : List (Int × ℚ)} {dmax : ℚ} {cat : Cat}
    (R : TableRules Shuttle.trains Shuttle.stations Shuttle.table t1 0 delays dmax cat π) :
    π.dep 1 "B" ≠ π.dep 3 "B" := by
  have hk : (0 : ℚ) < roundIf 0 ((headwayOf (headwayK "B" "C")
      (timesOf [{ path := "l3", passingTime := some 4 }])
      (timesOf [{ path := "l3", passingTime := some 4 }])).getD 0) := by decide +kernel
  have := R.following 1 3 "B" "C" _ _ [{ path := "l3", passingTime := some 4 }]
    [{ path := "l3", passingTime := some 4 }] (by decide) ⟨_, rfl⟩ ⟨_, rfl⟩
    ⟨[_, _, _], _, _, _, rfl, rfl, rfl, by simp⟩ ⟨[_, _, _], _, _, _, rfl, rfl, rfl, by simp⟩ rfl
  intro e
  rw [e] at this
  rcases this with ⟨-, h⟩ | ⟨-, h⟩ <;> linarith

end Verif
