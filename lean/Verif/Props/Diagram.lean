import Verif.Model.Diagram
import Verif.Props.PrintedSheet
import Verif.Props.SafePlan

/-!
# C76: the train diagrams

What the scripts in `/repo/solutions_quantum/data4diagrams` draw for a printed solution.
-/

namespace Verif

/-- the times of a point of the path, in the order in which they are drawn -/
def PathPoint.times (u : PathPoint) : List ℤ := u.arrival.toList ++ u.departure.toList

/-- one station after the other: left before the next one is reached -/
def Onward (u v : PathPoint) : Prop := ∃ d a, u.departure = some d ∧ v.arrival = some a ∧ d ≤ a

theorem times_pairwise : ∀ l : List PathPoint, l.IsChain Onward →
    (∀ u ∈ l, ∀ a d, u.arrival = some a → u.departure = some d → a ≤ d) →
    (l.flatMap PathPoint.times).Pairwise (· ≤ ·)
  | [], _, _ => by simp
  | u :: l, hc, hu => by
    have ih := times_pairwise l hc.tail (fun v hv => hu v (by simp [hv]))
    rw [List.flatMap_cons, List.pairwise_append]
    refine ⟨?_, ih, ?_⟩
    · unfold PathPoint.times
      have := hu u (by simp)
      cases h1 : u.arrival <;> cases h2 : u.departure <;> simp
      exact this _ _ h1 h2
    · cases l with
      | nil => simp
      | cons v l =>
        obtain ⟨d, a, h1, h2, h3⟩ := (List.isChain_cons_cons.1 hc).1
        intro x hx y hy
        have hxd : x ≤ d := by
          unfold PathPoint.times at hx
          rw [h1] at hx
          rcases List.mem_append.1 hx with hx | hx
          · exact hu u (by simp) x d (by simpa using hx) h1
          · simp at hx; omega
        have hay : a ≤ y := by
          have e : (List.flatMap PathPoint.times (v :: l)) =
              a :: (v.departure.toList ++ l.flatMap PathPoint.times) := by
            simp [PathPoint.times, h2]
          rw [e] at ih hy
          rcases List.mem_cons.1 hy with rfl | hy
          · exact le_refl _
          · exact (List.pairwise_cons.1 ih).1 y hy
        omega

theorem later_arrives {l : List PathPoint} : ∀ {u : PathPoint}, (u :: l).IsChain Onward →
    ∀ v ∈ l, ∃ a, v.arrival = some a := by
  induction l with
  | nil => simp
  | cons w l ih =>
    intro u hc v hv
    rcases List.mem_cons.1 hv with rfl | hv
    · obtain ⟨d, a, -, h2, -⟩ := (List.isChain_cons_cons.1 hc).1
      exact ⟨a, h2⟩
    · exact ih hc.tail v hv

/-- the keys for sorting are in order -/
theorem sortkeys_pairwise {epoch : ℤ} : ∀ l : List PathPoint, l.IsChain Onward →
    (∀ u ∈ l, ∀ a d, u.arrival = some a → u.departure = some d → a ≤ d) →
    (∀ u ∈ l, ∀ a, u.arrival = some a → epoch ≤ a) →
    (l.map fun u => u.arrival.getD epoch).Pairwise (· ≤ ·)
  | [], _, _, _ => by simp
  | u :: l, hc, hu, he => by
    rw [List.map_cons, List.pairwise_cons]
    refine ⟨?_, sortkeys_pairwise l hc.tail (fun v hv => hu v (by simp [hv]))
      (fun v hv => he v (by simp [hv]))⟩
    intro y hy
    obtain ⟨v, hv, rfl⟩ := List.mem_map.1 hy
    obtain ⟨a, ha⟩ := later_arrives hc v hv
    rw [ha]
    cases h : u.arrival with
    | none => exact he v (by simp [hv]) a ha
    | some a0 =>
      have := times_pairwise _ hc hu
      rw [List.pairwise_flatMap] at this
      exact (List.pairwise_cons.1 this.2).1 v hv a0 (by simp [PathPoint.times, h]) a
        (by simp [PathPoint.times, ha])

/-! ## The path of a train -/

/-- the point drawn for station `k` -/
def pointOf (status : String) (kd : Dict Val Printed) (k : Val) : PathPoint :=
  match Dict.get? kd k with
  | some x => ⟨k, noneIfNotArrive status x, noneIfNotDeparture status x⟩
  | none => ⟨k, none, none⟩

theorem mapM_points {status : String} {kd : Dict Val Printed} (l : List Val)
    (h : ∀ k ∈ l, ∃ x, Dict.get? kd k = some x) :
    (l.mapM fun k => do
      let x ← Dict.at! kd k
      (.ok ⟨k, noneIfNotArrive status x, noneIfNotDeparture status x⟩ : Py PathPoint)) =
      .ok (l.map (pointOf status kd)) := by
  induction l with
  | nil => rfl
  | cons k l ih =>
    obtain ⟨x, hx⟩ := h k (by simp)
    rw [List.mapM_cons, ih fun k hk => h k (by simp [hk])]
    unfold pointOf
    simp only [Dict.at!, hx, List.map_cons]
    rfl

theorem routeOf_perm (epoch : ℤ) (kd : Dict Val Printed) : (routeOf epoch kd).Perm (Dict.keys kd) := by
  unfold routeOf
  have := (List.perm_insertionSort (fun a b : Val × ℤ => a.2 ≤ b.2)
    (kd.map fun x => (x.1, arrivalForSort epoch x.2))).map Prod.fst
  rw [List.map_map] at this
  exact this

/-- C76, any printed train: the path has the stations of the train, each once, sorted by the arrivals,
stations without one first; no exception is raised. -/
theorem trainpath_runs (epoch : ℤ) (j : Val) (kd : Dict Val Printed) (status : String) :
    kdtrain2trainpath epoch j kd status = .ok ⟨j.render, status, routeOf epoch kd,
      (routeOf epoch kd).map (pointOf status kd)⟩ := by
  have h : ∀ k ∈ routeOf epoch kd, ∃ x, Dict.get? kd k = some x := fun k hk =>
    Option.isSome_iff_exists.1 ((Dict.get?_isSome kd k).2 ((routeOf_perm epoch kd).mem_iff.1 hk))
  unfold kdtrain2trainpath
  simp only [mapM_points _ h]
  rfl

/-! ## The drawn line -/

/-- a label lies between a station and a later one, in the middle of the line drawn between them -/
def Between (seg : List SegStation) (number : String) (l : List PathPoint) (x : ℚ × ℤ × String) : Prop :=
  x.2.2 = number ∧ ∃ u v ku kv d a, [u, v].Sublist l ∧ station2km seg u.station = some ku ∧
    station2km seg v.station = some kv ∧ u.departure = some d ∧ v.arrival = some a ∧
    x.1 = (ku + kv) / 2 ∧ d ≤ x.2.1 ∧ x.2.1 ≤ a

theorem labels_between (seg : List SegStation) (number : String) (l : List PathPoint)
    (hl : l.Pairwise fun u v => ∀ x ∈ u.times, ∀ y ∈ v.times, x ≤ y) :
    ∀ x ∈ (l.foldl (fun acc s => labelStep seg number s acc) (none, [])).2, Between seg number l x := by
  have key : ∀ (l2 l1 : List PathPoint) (acc : Option (ℚ × ℤ) × List (ℚ × ℤ × String)),
      (l1 ++ l2).Pairwise (fun u v => ∀ x ∈ u.times, ∀ y ∈ v.times, x ≤ y) →
      (∀ km d, acc.1 = some (km, d) → ∃ u ∈ l1, station2km seg u.station = some km ∧
        u.departure = some d) → (∀ x ∈ acc.2, Between seg number l1 x) →
      ∀ x ∈ (l2.foldl (fun acc s => labelStep seg number s acc) acc).2,
        Between seg number (l1 ++ l2) x := by
    intro l2
    induction l2 with
    | nil => intro l1 acc _ _ h2; simpa using h2
    | cons s l2 ih =>
      intro l1 acc hp h1 h2
      have mono : ∀ x, Between seg number l1 x → Between seg number (l1 ++ [s]) x := by
        rintro x ⟨e, u, v, ku, kv, d, a, hs, r⟩
        exact ⟨e, u, v, ku, kv, d, a, hs.trans (List.sublist_append_left _ _), r⟩
      have up : ∀ km d, acc.1 = some (km, d) → ∃ u ∈ l1 ++ [s], station2km seg u.station = some km ∧
          u.departure = some d := by
        intro km d e
        obtain ⟨u, hu, r⟩ := h1 km d e
        exact ⟨u, by simp [hu], r⟩
      rw [List.foldl_cons, show l1 ++ s :: l2 = (l1 ++ [s]) ++ l2 by simp]
      have hp' : ((l1 ++ [s]) ++ l2).Pairwise (fun u v => ∀ x ∈ u.times, ∀ y ∈ v.times, x ≤ y) := by
        simpa using hp
      cases hk : station2km seg s.station with
      | none =>
        refine ih _ _ hp' ?_ ?_
        · simpa only [labelStep, hk] using up
        · simp only [labelStep, hk]
          exact fun x hx => mono x (h2 x hx)
      | some km =>
        have hnew : ∀ x ∈ (match s.arrival, acc.1 with
            | some a, some (prevKm, prevT) => acc.2 ++
              [(prevKm + (km - prevKm) / 2, ⌊(prevT : ℚ) + ((a : ℚ) - prevT) / 2⌋, number)]
            | _, _ => acc.2), Between seg number (l1 ++ [s]) x := by
          cases ha : s.arrival with
          | none => exact fun x hx => mono x (h2 x hx)
          | some a =>
            cases hacc : acc.1 with
            | none => exact fun x hx => mono x (h2 x hx)
            | some pr =>
              obtain ⟨pk, pt⟩ := pr
              intro x hx
              rcases List.mem_append.1 hx with hx | hx
              · exact mono x (h2 x hx)
              · rw [List.mem_singleton] at hx
                obtain ⟨u, hu, hku, hd⟩ := h1 pk pt hacc
                have hle : pt ≤ a := (List.pairwise_append.1 hp).2.2 u hu s (by simp) pt
                  (by simp [PathPoint.times, hd]) a (by simp [PathPoint.times, ha])
                have hq : (pt : ℚ) ≤ a := by exact_mod_cast hle
                subst hx
                refine ⟨rfl, u, s, pk, km, pt, a, ?_, hku, hk, hd, ha, by ring, ?_, ?_⟩
                · exact List.Sublist.append (List.singleton_sublist.2 hu) (List.Sublist.refl [s])
                · exact Int.le_floor.2 (by linarith)
                · have : (⌊(pt : ℚ) + ((a : ℚ) - pt) / 2⌋ : ℚ) ≤ a :=
                    (Int.floor_le _).trans (by linarith)
                  exact_mod_cast this
        refine ih _ _ hp' ?_ ?_
        · simp only [labelStep, hk]
          cases hd : s.departure with
          | none => exact up
          | some d =>
            intro km' d' e
            cases e
            exact ⟨s, by simp, hk, hd⟩
        · simp only [labelStep, hk]
          cases hd : s.departure <;> exact hnew
  simpa using key l [] (none, []) (by simpa using hl) (by simp) (by simp)

theorem echo_pairwise (seg : List SegStation) (p : TrainPath)
    (h : (p.path.flatMap PathPoint.times).Pairwise (· ≤ ·)) :
    ((echoTrain seg p).map Prod.snd).Pairwise (· ≤ ·) := by
  have : ((echoTrain seg p).map Prod.snd).Sublist (p.path.flatMap PathPoint.times) := by
    unfold echoTrain
    rw [List.map_flatMap]
    generalize p.path = l
    induction l with
    | nil => simp
    | cons u l ih =>
      rw [List.flatMap_cons, List.flatMap_cons]
      refine List.Sublist.append ?_ ih
      unfold pointsAt
      cases station2km seg u.station with
      | none => simp
      | some km => simp [PathPoint.times, Function.comp_def]
  exact h.sublist this

theorem echo_points (seg : List SegStation) (p : TrainPath) (km : ℚ) (m : ℤ) :
    (km, m) ∈ echoTrain seg p ↔ ∃ u ∈ p.path, station2km seg u.station = some km ∧
      (u.arrival = some m ∨ u.departure = some m) := by
  unfold echoTrain
  rw [List.mem_flatMap]
  refine exists_congr fun u => and_congr_right fun _ => ?_
  unfold pointsAt
  cases station2km seg u.station with
  | none => simp
  | some k => simp [eq_comm]; tauto

/-! ## The paths of the trains of a plan -/

section Plan
variable {td : Trains} {st : Stations} {table : List PathRow} {t1 : String}
  {delays : List (Int × ℚ)} {ts : TrainSets} {tt : Timetable} {dmax : ℚ} {b : Built}
  {σ : LpVar → ℚ} {tref epoch : ℤ}

/-- What is drawn for train `t`, whose timetable is `rows`, if it leaves its stations at the times
`T`. -/
structure DrawnPlan (td : Trains) (st : Stations) (T : String → ℚ) (tref : ℤ) (t : Int)
    (rows : List Row) (p : TrainPath) : Prop where
  number : p.number = (Val.int t).render
  /-- the stations of the timetable, in its order -/
  route : p.route = (rows.filterMap (·.station)).map Val.str
  path : p.path.map (·.station) = p.route
  first : ∀ x q u, FirstStation rows x q → u ∈ p.path → u.station = .str x → u.arrival = none
  arrives : ∀ p' x m u, Consecutive rows p' x m → u ∈ p.path → u.station = .str x →
    ∃ a, u.arrival = some a ∧ (a : ℚ) = tref + (T p' + roundIf 1 (timesOf m).sum)
  departs : ∀ x u, Leaves td t x → u ∈ p.path → u.station = .str x →
    ∃ d, u.departure = some d ∧ (d : ℚ) = tref + T x
  ends : ∀ x u, EndsIn td st t x → u ∈ p.path → u.station = .str x → u.departure = none
  /-- the times of the drawn line do not decrease -/
  line : ∀ seg, ((echoTrain seg p).map Prod.snd).Pairwise (· ≤ ·)
  /-- the arrivals and departures at the stations of the segment are drawn, and nothing else -/
  points : ∀ seg km m, (km, m) ∈ echoTrain seg p ↔ ∃ u ∈ p.path,
    station2km seg u.station = some km ∧ (u.arrival = some m ∨ u.departure = some m)
  /-- the labels carry the number of the train and are on the line -/
  labels : ∀ seg, ∀ x ∈ echoLabels seg p, Between seg p.number p.path x

/-- the timetable of a train: what is needed to draw it -/
theorem drawn_of_rows {status : String} {T : String → ℚ} {t : Int} {rows : List Row}
    {kd : Dict Val Printed}
    (hkeys : Dict.keys kd = (rows.filterMap (·.station)).map Val.str)
    (hroute : routeOf epoch kd = Dict.keys kd)
    (first : ∀ x q row, FirstStation rows x q → Dict.get? kd (.str x) = some row →
      noneIfNotArrive status row = none)
    (arrives : ∀ p x m row, Consecutive rows p x m → Dict.get? kd (.str x) = some row →
      ∃ a, noneIfNotArrive status row = some a ∧ (a : ℚ) = tref + (T p + roundIf 1 (timesOf m).sum))
    (departs : ∀ x row, Leaves td t x → Dict.get? kd (.str x) = some row →
      ∃ d, noneIfNotDeparture status row = some d ∧ (d : ℚ) = tref + T x)
    (ends : ∀ x row, EndsIn td st t x → Dict.get? kd (.str x) = some row →
      noneIfNotDeparture status row = none)
    (hchain : ((Dict.keys kd).map (pointOf status kd)).IsChain Onward)
    (hin : ∀ u ∈ (Dict.keys kd).map (pointOf status kd), ∀ a d, u.arrival = some a →
      u.departure = some d → a ≤ d) :
    ∃ p, kdtrain2trainpath epoch (.int t) kd status = .ok p ∧ p.status = status ∧
      DrawnPlan td st T tref t rows p := by
  have hget : ∀ x u, u ∈ (Dict.keys kd).map (pointOf status kd) → u.station = .str x →
      ∃ row, Dict.get? kd (.str x) = some row ∧ u.arrival = noneIfNotArrive status row ∧
        u.departure = noneIfNotDeparture status row := by
    intro x u hu hx
    obtain ⟨k, hk, rfl⟩ := List.mem_map.1 hu
    obtain ⟨row, hrow⟩ := Option.isSome_iff_exists.1 ((Dict.get?_isSome kd k).2 hk)
    unfold pointOf at hx ⊢
    rw [hrow] at hx ⊢
    simp only at hx
    subst hx
    exact ⟨row, hrow, rfl, rfl⟩
  have htimes := times_pairwise _ hchain hin
  refine ⟨_, trainpath_runs epoch (.int t) kd status, rfl, rfl, by rw [hroute, hkeys], ?_, ?_, ?_, ?_, ?_,
    fun seg => echo_pairwise seg _ ?_, fun seg km m => echo_points seg _ km m,
    fun seg x hx => labels_between seg _ _ ?_ x hx⟩
  · simp only [List.map_map]
    rw [List.map_congr_left (g := id), List.map_id]
    intro k _
    simp only [Function.comp, pointOf]
    cases Dict.get? kd k <;> rfl
  all_goals simp only [hroute]
  · intro x q u hf hu hx
    obtain ⟨row, hr, h1, -⟩ := hget x u hu hx
    rw [h1]
    exact first x q row hf hr
  · intro p' x m u hc hu hx
    obtain ⟨row, hr, h1, -⟩ := hget x u hu hx
    rw [h1]
    exact arrives p' x m row hc hr
  · intro x u hl hu hx
    obtain ⟨row, hr, -, h1⟩ := hget x u hu hx
    rw [h1]
    exact departs x row hl hr
  · intro x u hl hu hx
    obtain ⟨row, hr, -, h1⟩ := hget x u hu hx
    rw [h1]
    exact ends x row hl hr
  · exact htimes
  · exact (List.pairwise_flatMap.1 htimes).2

theorem route_of_chain {kd : Dict Val Printed} (hnd : (Dict.keys kd).Nodup)
    (hchain : ((Dict.keys kd).map (pointOf "resolved" kd)).IsChain Onward)
    (hin : ∀ u ∈ (Dict.keys kd).map (pointOf "resolved" kd), ∀ a d, u.arrival = some a →
      u.departure = some d → a ≤ d)
    (hep : ∀ x ∈ kd, ∀ a, x.2.arrive = some a → epoch ≤ a) :
    routeOf epoch kd = Dict.keys kd := by
  have hpt : ∀ x ∈ kd, (pointOf "resolved" kd x.1).arrival = x.2.arrive := by
    rintro ⟨k, row⟩ hx
    simp only [pointOf, Dict.get?_of_mem hnd hx, noneIfNotArrive]
    rfl
  have hkd : Dict.keys kd = kd.map Prod.fst := rfl
  have hs := sortkeys_pairwise (epoch := epoch) _ hchain hin (by
    intro u hu a ha
    rw [hkd, List.map_map] at hu
    obtain ⟨x, hx, rfl⟩ := List.mem_map.1 hu
    exact hep x hx a (by rw [← hpt x hx]; exact ha))
  unfold routeOf
  rw [List.Pairwise.insertionSort_eq, List.map_map, hkd]
  · rfl
  · rw [hkd, List.map_map, List.map_map, List.map_congr_left
      (g := fun x => arrivalForSort epoch x.2)] at hs
    · rw [List.pairwise_map] at hs ⊢
      exact hs
    · intro x hx
      simp only [Function.comp, arrivalForSort, hpt x hx]

/-- a station is the first one or comes after another one -/
theorem first_or_next {rows : List Row} (ho : OnceEach rows) {x : String} (hx : Serves rows x) :
    (∃ q, FirstStation rows x q) ∨ ∃ p m, Consecutive rows p x m := by
  obtain ⟨A, B, e⟩ := List.append_of_mem (mem_stations.2 hx)
  rcases List.eq_nil_or_concat A with rfl | ⟨A', p, rfl⟩
  · refine .inl (firstStation_nth.1 ?_)
    rw [e]
    rfl
  · obtain ⟨m, hm⟩ := (next_iff (s := p) (s' := x) ho).1
      ((next_split ho).2 ⟨A', B, by rw [e]; simp⟩)
    exact .inr ⟨p, m, hm⟩

theorem chain_of_rows (G : GoodData td st) {status : String} {T : String → ℚ} {t : Int}
    {rows : List Row} (ht : TableOf td t rows) {kd : Dict Val Printed}
    (hkeys : Dict.keys kd = (rows.filterMap (·.station)).map Val.str)
    (first : ∀ x q row, FirstStation rows x q → Dict.get? kd (.str x) = some row →
      noneIfNotArrive status row = none)
    (arrives : ∀ p x m row, Consecutive rows p x m → Dict.get? kd (.str x) = some row →
      ∃ a, noneIfNotArrive status row = some a ∧ (a : ℚ) = tref + (T p + roundIf 1 (timesOf m).sum))
    (departs : ∀ x row, Leaves td t x → Dict.get? kd (.str x) = some row →
      ∃ d, noneIfNotDeparture status row = some d ∧ (d : ℚ) = tref + T x)
    (ends : ∀ x row, EndsIn td st t x → Dict.get? kd (.str x) = some row →
      noneIfNotDeparture status row = none)
    (hT : TimesOK td)
    (hrun : ∀ p x m, Consecutive rows p x m → Leaves td t x → T p + roundIf 1 (timesOf m).sum ≤ T x) :
    ((Dict.keys kd).map (pointOf status kd)).IsChain Onward ∧
    ∀ u ∈ (Dict.keys kd).map (pointOf status kd), ∀ a d, u.arrival = some a →
      u.departure = some d → a ≤ d := by
  have ho := (G.trains.table ht).1
  have hrow : ∀ x, Serves rows x → ∃ row, Dict.get? kd (.str x) = some row := by
    intro x hx
    refine Option.isSome_iff_exists.1 ((Dict.get?_isSome kd _).2 ?_)
    rw [hkeys]
    exact List.mem_map.2 ⟨x, mem_stations.2 hx, rfl⟩
  constructor
  · have key : ∀ l A, trainImportantStations rows = A ++ l →
        (l.map fun x => pointOf status kd (.str x)).IsChain Onward := by
      intro l
      induction l with
      | nil => intros; simp
      | cons x l ih =>
        intro A e
        cases l with
        | nil => simp
        | cons y l =>
          rw [List.map_cons, List.map_cons, List.isChain_cons_cons]
          refine ⟨?_, ih (A ++ [x]) (by rw [e]; simp)⟩
          obtain ⟨m, hc⟩ := (next_iff ho).1 ((next_split ho).2 ⟨A, l, e⟩)
          obtain ⟨rx, hrx⟩ := hrow x (consecutive_serves hc).1
          obtain ⟨ry, hry⟩ := hrow y (consecutive_serves hc).2
          obtain ⟨d, h1, h2⟩ := departs x rx (leaves_of_next G ht hc) hrx
          obtain ⟨a, h3, h4⟩ := arrives x y m ry hc hry
          refine ⟨d, a, by simp only [pointOf, hrx, h1], by simp only [pointOf, hry, h3], ?_⟩
          have := roundIf_nonneg (r := 1) (List.sum_nonneg (timesOf_nonneg hT ht hc))
          have : (d : ℚ) ≤ a := by rw [h2, h4]; linarith
          exact_mod_cast this
    have := key _ [] rfl
    rw [hkeys, List.map_map]
    exact this
  · intro u hu a d ha hd
    rw [hkeys, List.map_map] at hu
    obtain ⟨x, hx, rfl⟩ := List.mem_map.1 hu
    have hsx : Serves rows x := mem_stations.1 hx
    obtain ⟨row, hr⟩ := hrow x hsx
    simp only [Function.comp, pointOf, hr] at ha hd
    have hl : Leaves td t x := (leaves_iff G).2 ⟨⟨rows, ht, hsx⟩, fun he => by
      rw [ends x row he hr] at hd
      cases hd⟩
    rcases first_or_next ho hsx with ⟨q, hf⟩ | ⟨p, m, hc⟩
    · rw [first x q row hf hr] at ha
      cases ha
    · obtain ⟨a', h1, h2⟩ := arrives p x m row hc hr
      obtain ⟨d', h3, h4⟩ := departs x row hl hr
      rw [h1] at ha
      rw [h3] at hd
      cases ha
      cases hd
      have : (a : ℚ) ≤ d := by
        rw [h2, h4]
        linarith [hrun p x m hc hl]
      exact_mod_cast this

theorem Earliest.later {rows : List Row} {r : Int} {a : ℚ} {x : String} {e : ℚ}
    (h : Earliest rows t1 r a x e) : ∃ u, Later rows t1 x u e := by
  cases h with
  | first _ _ hl => exact ⟨_, hl⟩
  | next _ _ _ _ hl => exact ⟨_, hl⟩

theorem Later.other {rows : List Row} {x : String} {u e : ℚ} (h : Later rows t1 x u e) (u' : ℚ) :
    ∃ e', Later rows t1 x u' e' ∧ u' ≤ e' := by
  rcases h with ⟨dep, v, h1, h2, -⟩ | ⟨h1, -⟩
  · exact ⟨_, .inl ⟨dep, v, h1, h2, rfl⟩, le_max_right _ _⟩
  · exact ⟨_, .inr ⟨h1, rfl⟩, le_refl _⟩

/-- the earliest departures leave time for the run and the stop -/
theorem Earliest.runs (G : GoodData td st) (h : makeInput td st table t1 1 delays = .ok (ts, tt))
    {t : Int} {rows m : List Row} (ht : TableOf td t rows) {p x : String} {q : Row}
    (hc : Consecutive rows p x m) (hq : q ∈ rows) (hs : q.station = some x) (hx : Leaves td t x) {e0 e : ℚ}
    (h0 : Earliest rows t1 1 (addedDelay delays t) p e0)
    (h1 : Earliest rows t1 1 (addedDelay delays t) x e) :
    e0 + roundIf 1 (timesOf m).sum + roundIf 1 (q.passingTime.getD 0) ≤ e := by
  obtain ⟨u, hu⟩ := h1.later
  obtain ⟨e', hl, hle⟩ := hu.other (e0 + roundIf 1 (timesOf m).sum + roundIf 1 (q.passingTime.getD 0))
  rw [(C70_found G h ht hx).unique h1 (.next hc hq hs h0 hl)]
  exact hle

/-- **C76**, one train: what is printed for a train with the times of a plan is drawn with them, and,
as conflicted, with the earliest departures. `epoch` stands for the year 1899. -/
theorem C76_train (G : GoodData td st) (hT : TimesOK td)
    (h : makeInput td st table t1 1 delays = .ok (ts, tt))
    (hb : buildProblem ts tt dmax .integer = .ok b) (hf : Feasible b σ) {dep : Int → String → ℚ}
    (hdep : ∀ t x, Leaves td t x → Departs ts tt b.dv σ (.int t) (.str x) (dep t x)) {t : Int}
    {rows : List Row} (ht : TableOf td t rows) {sch : Dict Val Printed}
    (hkeys : Dict.keys sch = (rows.filterMap (·.station)).map Val.str)
    (hP : PrintedPlan td st t1 delays dmax dep tref t rows sch)
    (hep : ∀ x ∈ sch, ∀ a, x.2.arrive = some a → epoch ≤ a) :
    (∃ p, kdtrain2trainpath epoch (.int t) sch "resolved" = .ok p ∧ p.status = "resolved" ∧
      DrawnPlan td st (dep t) tref t rows p) ∧
    ∃ p e, kdtrain2trainpath epoch (.int t) sch "conflicted" = .ok p ∧ p.status = "conflicted" ∧
      (∀ x, Leaves td t x → Earliest rows t1 1 (addedDelay delays t) x (e x)) ∧
      DrawnPlan td st e tref t rows p := by
  have ho := (G.trains.table ht).1
  have hnd : (Dict.keys sch).Nodup := by
    rw [hkeys]
    exact List.Nodup.map (fun a b e => by cases e; rfl) ho
  have hq : ∀ x, Serves rows x → ∃ q ∈ rows, q.station = some x := fun x hx => hx
  have hstop : ∀ q ∈ rows, 0 ≤ roundIf 1 (q.passingTime.getD 0) := by
    intro q hq
    obtain ⟨info, hm⟩ := ht.mem
    exact roundIf_nonneg (hT _ hm q hq)
  have r1 : ∀ x q row, FirstStation rows x q → Dict.get? sch (.str x) = some row →
      noneIfNotArrive "resolved" row = none := fun x q row h1 h2 => (hP.first x q row h1 h2).1
  have r2 : ∀ p x m row, Consecutive rows p x m → Dict.get? sch (.str x) = some row →
      ∃ a, noneIfNotArrive "resolved" row = some a ∧
        (a : ℚ) = tref + (dep t p + roundIf 1 (timesOf m).sum) := by
    intro p x m row h1 h2
    obtain ⟨a, c, e, h3, -, -, h4, -⟩ := hP.arrives p x m row h1 h2
    exact ⟨a, h3, h4⟩
  have r3 : ∀ x row, Leaves td t x → Dict.get? sch (.str x) = some row →
      ∃ d, noneIfNotDeparture "resolved" row = some d ∧ (d : ℚ) = tref + dep t x := by
    intro x row h1 h2
    obtain ⟨d, c, s, e, h3, -, -, -, h4, -⟩ := hP.departs x row h1 h2
    exact ⟨d, h3, h4⟩
  have r4 : ∀ x row, EndsIn td st t x → Dict.get? sch (.str x) = some row →
      noneIfNotDeparture "resolved" row = none := fun x row h1 h2 => (hP.ends x row h1 h2).1
  have hrun : ∀ p x m, Consecutive rows p x m → Leaves td t x →
      dep t p + roundIf 1 (timesOf m).sum ≤ dep t x := by
    intro p x m hc hx
    obtain ⟨q, hq, hs⟩ := (consecutive_serves hc).2
    obtain ⟨d0, hd0, hle⟩ := (C61_timetable G h hb hf ht (hdep t x hx)).2 p m q hc hq hs
    rw [hd0.unique (hdep t p (leaves_of_next G ht hc))] at hle
    linarith [hstop q hq]
  obtain ⟨hc1, hi1⟩ := chain_of_rows (tref := tref) (T := dep t) G ht hkeys r1 r2 r3 r4 hT hrun
  have hroute := route_of_chain hnd hc1 hi1 hep
  refine ⟨drawn_of_rows hkeys hroute r1 r2 r3 r4 hc1 hi1, ?_⟩
  have hE : ∀ x, ∃ e, Leaves td t x → Earliest rows t1 1 (addedDelay delays t) x e := by
    intro x
    by_cases hx : Leaves td t x
    · obtain ⟨e, he, -⟩ := C70_found G h ht hx
      exact ⟨e, fun _ => he⟩
    · exact ⟨0, fun hl => absurd hl hx⟩
  choose e he using hE
  have c1 : ∀ x q row, FirstStation rows x q → Dict.get? sch (.str x) = some row →
      noneIfNotArrive "conflicted" row = none := fun x q row h1 h2 => (hP.first x q row h1 h2).2
  have c2 : ∀ p x m row, Consecutive rows p x m → Dict.get? sch (.str x) = some row →
      ∃ a, noneIfNotArrive "conflicted" row = some a ∧
        (a : ℚ) = tref + (e p + roundIf 1 (timesOf m).sum) := by
    intro p x m row h1 h2
    obtain ⟨a, c, e', -, h3, h5, -, h4⟩ := hP.arrives p x m row h1 h2
    have hl := leaves_of_next G ht h1
    rw [(C70_found G h ht hl).unique h5 (he p hl)] at h4
    exact ⟨c, h3, h4⟩
  have c3 : ∀ x row, Leaves td t x → Dict.get? sch (.str x) = some row →
      ∃ d, noneIfNotDeparture "conflicted" row = some d ∧ (d : ℚ) = tref + e x := by
    intro x row h1 h2
    obtain ⟨d, c, s, e', -, h3, -, h5, -, h4, -⟩ := hP.departs x row h1 h2
    rw [(C70_found G h ht h1).unique h5 (he x h1)] at h4
    exact ⟨c, h3, h4⟩
  have c4 : ∀ x row, EndsIn td st t x → Dict.get? sch (.str x) = some row →
      noneIfNotDeparture "conflicted" row = none := fun x row h1 h2 => (hP.ends x row h1 h2).2.2.1
  have crun : ∀ p x m, Consecutive rows p x m → Leaves td t x →
      e p + roundIf 1 (timesOf m).sum ≤ e x := by
    intro p x m hc hx
    obtain ⟨q, hq, hs⟩ := (consecutive_serves hc).2
    linarith [hstop q hq, Earliest.runs G h ht hc hq hs hx (he p (leaves_of_next G ht hc)) (he x hx)]
  obtain ⟨hc2, hi2⟩ := chain_of_rows (tref := tref) (T := e) G ht hkeys c1 c2 c3 c4 hT crun
  obtain ⟨p, h1, h2, h3⟩ := drawn_of_rows hkeys hroute c1 c2 c3 c4 hc2 hi2
  exact ⟨p, e, h1, h2, he, h3⟩

end Plan

/-! ## The diagram -/

/-- the two paths of a printed train -/
def bothPaths (epoch : ℤ) (e : Val × Dict Val Printed) : TrainPath × TrainPath :=
  (⟨e.1.render, "resolved", routeOf epoch e.2, (routeOf epoch e.2).map (pointOf "resolved" e.2)⟩,
   ⟨e.1.render, "conflicted", routeOf epoch e.2, (routeOf epoch e.2).map (pointOf "conflicted" e.2)⟩)

def drawnPaths (epoch : ℤ) (seg : List SegStation) (fixed : List String)
    (d : Dict Val (Dict Val Printed)) : List (TrainPath × TrainPath) :=
  (d.map (bothPaths epoch)).filter fun x => isDrawn seg fixed x.1

theorem isDrawn_iff {seg : List SegStation} {fixed : List String} {p : TrainPath} :
    isDrawn seg fixed p = true ↔ 2 ≤ trainOnSegment seg ["KO", "KO(STM)"] p ∨ p.number ∈ fixed := by
  unfold isDrawn diagramExceptions
  rw [Bool.or_eq_true, decide_eq_true_iff, decide_eq_true_iff]

def blocksFrom (seg : List SegStation) (n : Nat) (M : List (TrainPath × TrainPath)) : List Drawn :=
  ((M.flatMap fun x => [x.1, x.2]).zipIdx n).map fun x =>
    ⟨x.2, x.1.status, echoTrain seg x.1, echoLabels seg x.1⟩

def stylesFrom (n : Nat) (M : List (TrainPath × TrainPath)) : List (Nat × Nat) :=
  ((M.flatMap fun _ => [1, 2]).zipIdx n).map fun x => (x.2, x.1)

theorem blocks_from (epoch : ℤ) (seg : List SegStation) (fixed : List String)
    (d : Dict Val (Dict Val Printed)) (n : Nat) (acc : List Drawn) :
    loop d (fun acc e => loop ["resolved", "conflicted"] (fun acc status => do
      let train ← kdtrain2trainpath epoch e.1 e.2 status
      if isDrawn seg fixed train then
        .ok (acc.1 + 1, acc.2 ++ [⟨acc.1, status, echoTrain seg train, echoLabels seg train⟩])
      else .ok acc) acc) (n, acc) =
    (.ok (n + 2 * (drawnPaths epoch seg fixed d).length,
      acc ++ blocksFrom seg n (drawnPaths epoch seg fixed d)) : Py (Nat × List Drawn)) := by
  induction d generalizing n acc with
  | nil => simp [loop, drawnPaths, blocksFrom]
  | cons e d ih =>
    have hsame : isDrawn seg fixed (bothPaths epoch e).2 = isDrawn seg fixed (bothPaths epoch e).1 := rfl
    rw [loop]
    simp only [loop, trainpath_runs, bind, Except.bind]
    rw [show (⟨e.1.render, "conflicted", routeOf epoch e.2,
        (routeOf epoch e.2).map (pointOf "conflicted" e.2)⟩ : TrainPath) = (bothPaths epoch e).2 from rfl,
      show (⟨e.1.render, "resolved", routeOf epoch e.2,
        (routeOf epoch e.2).map (pointOf "resolved" e.2)⟩ : TrainPath) = (bothPaths epoch e).1 from rfl,
      hsame]
    have hdp : drawnPaths epoch seg fixed (e :: d) = if isDrawn seg fixed (bothPaths epoch e).1 then
        bothPaths epoch e :: drawnPaths epoch seg fixed d else drawnPaths epoch seg fixed d := by
      simp only [drawnPaths, List.map_cons, List.filter_cons]
    rw [hdp]
    cases isDrawn seg fixed (bothPaths epoch e).1 with
    | false =>
      simp only [Bool.false_eq_true, if_false]
      have := ih n acc
      simp only [loop, trainpath_runs, bind, Except.bind] at this
      exact this
    | true =>
      simp only [if_true]
      have := ih (n + 1 + 1) (acc ++ [⟨n, "resolved", echoTrain seg (bothPaths epoch e).1,
        echoLabels seg (bothPaths epoch e).1⟩] ++ [⟨n + 1, "conflicted",
        echoTrain seg (bothPaths epoch e).2, echoLabels seg (bothPaths epoch e).2⟩])
      simp only [loop, trainpath_runs, bind, Except.bind] at this
      rw [this]
      simp [blocksFrom, bothPaths]
      omega

theorem styles_from (epoch : ℤ) (seg : List SegStation) (fixed : List String)
    (d : Dict Val (Dict Val Printed)) (n : Nat) (acc : List (Nat × Nat)) :
    loop d (fun acc e => loop ["resolved", "conflicted"] (fun acc status => do
      let ls := if status = "conflicted" then 2 else 1
      let train ← kdtrain2trainpath epoch e.1 e.2 status
      if isDrawn seg fixed train then .ok (acc.1 + 1, acc.2 ++ [(acc.1, ls)])
      else .ok acc) acc) (n, acc) =
    (.ok (n + 2 * (drawnPaths epoch seg fixed d).length,
      acc ++ stylesFrom n (drawnPaths epoch seg fixed d)) : Py (Nat × List (Nat × Nat))) := by
  induction d generalizing n acc with
  | nil => simp [loop, drawnPaths, stylesFrom]
  | cons e d ih =>
    have hsame : isDrawn seg fixed (bothPaths epoch e).2 = isDrawn seg fixed (bothPaths epoch e).1 := rfl
    rw [loop]
    simp only [loop, trainpath_runs, bind, Except.bind]
    rw [show (⟨e.1.render, "conflicted", routeOf epoch e.2,
        (routeOf epoch e.2).map (pointOf "conflicted" e.2)⟩ : TrainPath) = (bothPaths epoch e).2 from rfl,
      show (⟨e.1.render, "resolved", routeOf epoch e.2,
        (routeOf epoch e.2).map (pointOf "resolved" e.2)⟩ : TrainPath) = (bothPaths epoch e).1 from rfl,
      hsame]
    have hdp : drawnPaths epoch seg fixed (e :: d) = if isDrawn seg fixed (bothPaths epoch e).1 then
        bothPaths epoch e :: drawnPaths epoch seg fixed d else drawnPaths epoch seg fixed d := by
      simp only [drawnPaths, List.map_cons, List.filter_cons]
    rw [hdp]
    cases isDrawn seg fixed (bothPaths epoch e).1 with
    | false =>
      simp only [Bool.false_eq_true, if_false]
      have := ih n acc
      simp only [loop, trainpath_runs, bind, Except.bind] at this
      exact this
    | true =>
      simp only [if_true]
      have := ih (n + 1 + 1) (acc ++ [(n, 1)] ++ [(n + 1, 2)])
      simp only [loop, trainpath_runs, bind, Except.bind] at this
      refine Eq.trans ?_ (this.trans ?_)
      · rfl
      · simp [stylesFrom]
        omega

/-- **C76**, the diagram. The trains with two stations of the segment, or in the list of fixed ones, are
drawn, each one twice: as resolved with style 1 and then as conflicted with style 2; the numbers of the
data blocks in the two parts of the script are the same. -/
theorem C76_diagram (epoch : ℤ) (seg : List SegStation) (fixed : List String)
    (d : Dict Val (Dict Val Printed)) :
    ∃ M : List (TrainPath × TrainPath),
      (∀ p q, (p, q) ∈ M ↔ ∃ j kd, (j, kd) ∈ d ∧ kdtrain2trainpath epoch j kd "resolved" = .ok p ∧
        kdtrain2trainpath epoch j kd "conflicted" = .ok q ∧
        (2 ≤ trainOnSegment seg ["KO", "KO(STM)"] p ∨ j.render ∈ fixed)) ∧
      diagramBlocks epoch seg fixed d = .ok (2 * M.length,
        (M.flatMap fun x => [x.1, x.2]).zipIdx.map fun x =>
          ⟨x.2, x.1.status, echoTrain seg x.1, echoLabels seg x.1⟩) ∧
      diagramPlots epoch seg fixed d = .ok (2 * M.length,
        (M.flatMap fun _ => [1, 2]).zipIdx.map fun x => (x.2, x.1)) := by
  refine ⟨drawnPaths epoch seg fixed d, ?_, ?_, ?_⟩
  · intro p q
    simp only [drawnPaths, List.mem_filter, List.mem_map, trainpath_runs]
    constructor
    · rintro ⟨⟨⟨j, kd⟩, hm, he⟩, hd⟩
      have e1 : p = (bothPaths epoch (j, kd)).1 := by rw [he]
      have e2 : q = (bothPaths epoch (j, kd)).2 := by rw [he]
      subst e1 e2
      refine ⟨j, kd, hm, rfl, rfl, ?_⟩
      exact isDrawn_iff.1 hd
    · rintro ⟨j, kd, hm, h1, h2, h3⟩
      cases h1
      cases h2
      exact ⟨⟨(j, kd), hm, rfl⟩, isDrawn_iff.2 h3⟩
  · unfold diagramBlocks
    rw [blocks_from, Nat.zero_add]
    rfl
  · unfold diagramPlots
    rw [styles_from, Nat.zero_add]
    rfl

/-! ## Whole sheets -/

section Sheet
variable {td : Trains} {st : Stations} {table : List PathRow} {t1 : String}

/-- Both paths of a train: with the departures of the plan, and with the earliest ones -/
def DrawnTwice (td : Trains) (st : Stations) (t1 : String) (delays : List (Int × ℚ))
    (dep : Int → String → ℚ) (tref epoch : ℤ) (t : Int) (rows : List Row) (sch : Dict Val Printed) :
    Prop :=
  (∃ p, kdtrain2trainpath epoch (.int t) sch "resolved" = .ok p ∧ p.status = "resolved" ∧
    DrawnPlan td st (dep t) tref t rows p) ∧
  ∃ p e, kdtrain2trainpath epoch (.int t) sch "conflicted" = .ok p ∧ p.status = "conflicted" ∧
    (∀ x, Leaves td t x → Earliest rows t1 1 (addedDelay delays t) x (e x)) ∧
    DrawnPlan td st e tref t rows p

/-- Whatever the whole delays, `d_max` and the time of reference: the solutions are printed, and from
what is printed every train whose delays are in the problem is drawn with the departures of the
solution. No arrival is before the year 1899. -/
def PlansDrawn (td : Trains) (st : Stations) (table : List PathRow) (t1 : String) : Prop :=
  ∀ delays dmax ts tt b σ (tref epoch : ℤ), (∀ d ∈ delays, IsInt d.2) → dmax ≠ 0 →
    makeInput td st table t1 1 delays = .ok (ts, tt) → buildProblem ts tt dmax .integer = .ok b →
    Feasible b σ →
    ∃ pass0 skip dep d, getTausPass td 0 = .ok pass0 ∧ ts.skipStation = some skip ∧
      (∀ t x, Leaves td t x → Departs ts tt b.dv σ (.int t) (.str x) (dep t x)) ∧
      printOptimisationResults b.prob ts tt pass0 skip dmax tref σ = .ok d ∧
      Dict.keys d = (Dict.keys td).map Val.int ∧
      ∀ t rows, TableOf td t rows → ∃ sch, Dict.get? d (.int t) = some sch ∧
        (Shown td st t1 delays dmax t → (∀ x ∈ sch, ∀ a, x.2.arrive = some a → epoch ≤ a) →
          DrawnTwice td st t1 delays dep tref epoch t rows sch)

theorem plansDrawn (G : GoodData td st) (hm : AllMeet td) (hn : NamesClear td st) (hT : TimesOK td) :
    PlansDrawn td st table t1 := by
  intro delays dmax ts tt b σ tref epoch hw h0 h hb hf
  obtain ⟨pass0, skip, dep, d, h1, h2, h3, h4, h5, h6⟩ := plansPrinted (table := table) G hm hn delays
    dmax ts tt b σ tref hw h0 h hb hf
  refine ⟨pass0, skip, dep, d, h1, h2, h3, h4, h5, fun t rows ht => ?_⟩
  obtain ⟨sch, h7, h8, h9⟩ := h6 t rows ht
  exact ⟨sch, h7, fun hs he => C76_train G hT h hb hf h3 ht h8 (h9 hs) he⟩

/-- **C76.** From a good sheet, with no negative passing times, the timetables are built, and the
solutions are drawn. -/
theorem C76_sheet {secs : List Section} (G : GoodSheet secs st table t1)
    (S : SafeSheet secs st table) :
    ∃ td, buildTimetables (sheetOf secs) st table = .ok td ∧ LoadedFrom secs st td ∧
      PlansDrawn td st table t1 := by
  obtain ⟨td, h1, h2⟩ := G.load (C42_sheet_partial secs G.sections G.numbers)
  have L := G.loaded h2
  exact ⟨td, h1, L, plansDrawn (G.goodData L) (G.readable L).meet (G.namesClear L) (S.timesOK h2)⟩

end Sheet

/-! ## Example -/

/-- the rows printed for train 3 of the example of C75 -/
def shuttleRows : Dict Val Printed :=
  [(.str "A", ⟨none, none, some 732, some 2, some 730, some 0⟩),
   (.str "B", ⟨some 737, some 735, some 740, some 2, some 738, some (1 / 10)⟩),
   (.str "C", ⟨some 744, some 742, none, none, none, none⟩)]

/-- a segment with two of the three stations -/
def shuttleSegment : List SegStation := [⟨"Ceh", "c", 0⟩, ⟨"A", "", 12⟩]

/-- train 3 of the example of C75, drawn -/
example : kdtrain2trainpath 0 (.int 3) shuttleRows "resolved" = .ok ⟨"3", "resolved",
      [.str "A", .str "B", .str "C"], [⟨.str "A", none, some 732⟩, ⟨.str "B", some 737, some 740⟩,
        ⟨.str "C", some 744, none⟩]⟩ ∧
    (diagramBlocks 0 shuttleSegment [] [(.int 3, shuttleRows)]).toOption = some (2,
      [⟨0, "resolved", [(12, 732), (0, 744)], [(6, 738, "3")]⟩,
       ⟨1, "conflicted", [(12, 730), (0, 742)], [(6, 736, "3")]⟩]) ∧
    (diagramPlots 0 shuttleSegment [] [(.int 3, shuttleRows)]).toOption = some (2, [(0, 1), (1, 2)]) := by
  refine ⟨?_, ?_, ?_⟩ <;> decide +kernel

/-- the hypotheses of `C76_train` are met: train 3 of the example of C75 -/
example : ∃ ts tt b dep pass0 skip d sch,
    makeInput Shuttle.trains Shuttle.stations Shuttle.table "12:00" 1 [(1, 3)] = .ok (ts, tt) ∧
    buildProblem ts tt 20 .integer = .ok b ∧ Feasible b Shuttle.plan3 ∧
    (∀ t x, Leaves Shuttle.trains t x → Departs ts tt b.dv Shuttle.plan3 (.int t) (.str x) (dep t x)) ∧
    printOptimisationResults b.prob ts tt pass0 skip 20 720 Shuttle.plan3 = .ok d ∧
    Dict.get? d (.int 3) = some sch ∧ (∃ rows, TableOf Shuttle.trains 3 rows ∧
      ((∀ x ∈ sch, ∀ a, x.2.arrive = some a → 0 ≤ a) →
      DrawnTwice Shuttle.trains Shuttle.stations "12:00" [(1, 3)] dep 720 0 3 rows sch)) := by
  obtain ⟨ts, tt, b, h, hb, hf, -⟩ := run_of_check (td := Shuttle.trains) (st := Shuttle.stations)
    (table := Shuttle.table) (t1 := "12:00") (r := 1) (delays := [(1, 3)]) (dmax := 20)
    (σ := Shuttle.plan3) (deps := []) (by decide +kernel) plan3_delay plan3_order
  have hT : TimesOK Shuttle.trains := by unfold TimesOK; decide +kernel
  obtain ⟨pass0, skip, dep, d, -, -, hdep, hpr, -, hall⟩ := plansDrawn (table := Shuttle.table)
    (t1 := "12:00") Shuttle.good Shuttle.meet Shuttle.names hT [(1, 3)] 20 ts tt b Shuttle.plan3 720 0
    (by simpa using isInt_int 3) (by norm_num) h hb hf
  obtain ⟨rows, ht⟩ : ∃ rows, TableOf Shuttle.trains 3 rows := ⟨_, _, rfl⟩
  have no : ¬ TakenForShunting Shuttle.trains 3 := by
    rintro ⟨n, hn, -, h⟩
    have h0 : ∀ n ∈ Dict.keys Shuttle.trains, 0 < n := by decide +kernel
    have := h0 n hn
    omega
  obtain ⟨sch, h1, h2⟩ := hall 3 rows ht
  exact ⟨ts, tt, b, dep, pass0, skip, d, sch, h, hb, hf, hdep, hpr, h1, rows, ht, h2 (.inl no)⟩

/-- The times of the drawn line need a plan: if the printed arrivals are not in the order of the
stations, which happens for samples that break the constraints, the stations are drawn in another
order. -/
theorem C76_unordered : routeOf 0 [(.str "A", { departure := some 732 }),
    (.str "B", { arrive := some 737, departure := some 720 }), (.str "C", { arrive := some 727 })] =
    [.str "A", .str "C", .str "B"] := by decide +kernel

end Verif
