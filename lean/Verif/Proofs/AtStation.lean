import Verif.Props.Taus
import Verif.Proofs.Data

/-!
# Trains at a station and loops over stations
-/

namespace Verif

/-- the train runs over a block of the station -/
def CallsAt (st : Stations) (tt : List Row) (s : String) : Prop := ∃ r ∈ tt, BelongsTo st r.path s

/-- the blocks of the station that the train runs over, in the order of the station list -/
def stationBlocks (bs : List String) (tt : List Row) : List String :=
  bs.filter fun b => decide (∃ r ∈ tt, r.path = b)

theorem belongs_iff {st : Stations} (hk : (Dict.keys st).Nodup) {s b : String} {bs : List String}
    (hs : (s, bs) ∈ st) : BelongsTo st b s ↔ b ∈ bs := by
  constructor
  · rintro ⟨bs', h1, h2⟩
    have e1 := Dict.get?_of_mem hk hs
    rw [Dict.get?_of_mem hk h1] at e1
    cases e1; exact h2
  · intro h; exact ⟨bs, hs, h⟩

theorem get?_map_snd {K V W : Type} [DecidableEq K] (d : Dict K V) (f : V → W) (k : K) :
    Dict.get? (d.map fun e => (e.1, f e.2)) k = (Dict.get? d k).map f := by
  induction d with
  | nil => rfl
  | cons p d ih =>
    simp only [List.map_cons, Dict.get?, ih]
    split <;> rfl

theorem get?_trainsAt {td : Trains} {st : Stations} {b : Bool} {s : String} {bs : List String}
    (hk : (Dict.keys st).Nodup) (hs : (s, bs) ∈ st) :
    Dict.get? (getTrainsAtStation td st b) s =
      some ((td.filter fun t => isAtStation b t.2.2 bs).map Prod.fst) := by
  unfold getTrainsAtStation
  rw [get?_map_snd st (fun bs => (td.filter fun t => isAtStation b t.2.2 bs).map Prod.fst) s,
    Dict.get?_of_mem hk hs]
  rfl

/-- the trains found at a station -/
def trainsAt (td : Trains) (b : Bool) (bs : List String) : List Int :=
  (td.filter fun t => isAtStation b t.2.2 bs).map Prod.fst

theorem trainsAt_nodup {td : Trains} (hk : (Dict.keys td).Nodup) (b : Bool) (bs : List String) :
    (trainsAt td b bs).Nodup :=
  hk.sublist (List.filter_sublist.map Prod.fst)

theorem mem_trainsAt {td : Trains} (hk : (Dict.keys td).Nodup) {b : Bool} {bs : List String}
    {t : Int} : t ∈ trainsAt td b bs ↔ ∃ tt, TableOf td t tt ∧ isAtStation b tt bs = true := by
  unfold trainsAt
  rw [List.mem_map]
  constructor
  · rintro ⟨e, he, rfl⟩
    rw [List.mem_filter] at he
    exact ⟨e.2.2, TableOf.of_mem hk he.1, he.2⟩
  · rintro ⟨tt, ht, h⟩
    obtain ⟨info, hm⟩ := ht.mem
    exact ⟨_, List.mem_filter.2 ⟨hm, h⟩, rfl⟩

theorem atStation_any {tt : List Row} {bs : List String} :
    (atStation tt bs).any id = true ↔ ∃ r ∈ tt, r.path ∈ bs := by
  unfold atStation
  simp

theorem isAtStation_false {tt : List Row} {bs : List String} :
    isAtStation false tt bs = true ↔ ∃ r ∈ tt, r.path ∈ bs := by
  unfold isAtStation
  rw [if_pos rfl, atStation_any]

theorem isAtStation_true {tt : List Row} {bs : List String} :
    isAtStation true tt bs = true ↔
      (∃ r ∈ tt, r.path ∈ bs) ∧ ∀ r, tt.getLast? = some r → r.path ∉ bs := by
  unfold isAtStation
  rw [if_neg (by simp), Bool.and_eq_true, atStation_any]
  have : (atStation tt bs).getLast? = tt.getLast?.map fun r => decide (r.path ∈ bs) := by
    unfold atStation; rw [List.getLast?_map]
  rw [this]
  refine and_congr_right fun _ => ?_
  cases tt.getLast? with
  | none => simp
  | some r => simp

theorem calls_iff {st : Stations} (hk : (Dict.keys st).Nodup) {s : String} {bs : List String}
    (hs : (s, bs) ∈ st) (tt : List Row) : CallsAt st tt s ↔ ∃ r ∈ tt, r.path ∈ bs := by
  unfold CallsAt
  simp only [belongs_iff hk hs]

/-- with the column of stations right, `blocks_list_4station` finds the blocks of the station -/
theorem blocksList_eq {st : Stations} (hk : (Dict.keys st).Nodup) {tt : List Row}
    (htag : TaggedRows st tt) {s : String} {bs : List String} (hs : (s, bs) ∈ st) :
    blocksList4station tt s st = .ok (stationBlocks bs tt) := by
  have hfun : stationBlocks bs tt = commonElements bs (tt.map (·.path)) := by
    unfold stationBlocks commonElements
    congr 1
    funext b
    simp
  unfold blocksList4station
  split
  · rename_i hn
    rw [mem_stations] at hn
    congr 1
    symm
    unfold stationBlocks
    rw [List.filter_eq_nil_iff]
    intro b hb
    rw [decide_eq_true_eq]
    rintro ⟨r, hr, rfl⟩
    exact hn ⟨r, hr, (htag r hr s).2 ((belongs_iff hk hs).2 hb)⟩
  · rw [show Dict.at! st s = .ok bs from Dict.at!_ok.2 (Dict.get?_of_mem hk hs), hfun]
    rfl

/-- `imp_stations`, by default all stations -/
def chosen (st : Stations) (imp : Option (List String)) : List String := imp.getD (Dict.keys st)

theorem important_fst (td : Trains) (st : Stations) (imp : Option (List String)) (b : Bool) :
    (importantTrainsAndStations td st imp b).1 = chosen st imp := by
  cases imp <;> rfl

/-- a loop over stations that stores one value per station -/
theorem station_loop {V : Type} {l : List String} {f : Dict String V → String → Py (Dict String V)}
    {g : String → Py V} (hf : ∀ d, ∀ s ∈ l, f d s = (g s >>= fun v => .ok (Dict.set d s v)))
    {r : Dict String V} (h : loop l f [] = .ok r) :
    (∀ s, s ∉ l → Dict.get? r s = none) ∧
    (∀ s ∈ l, ∃ v, g s = .ok v ∧ Dict.get? r s = some v) := by
  have hu : loop l f [] = (collect l (fun s => g s >>= fun v => .ok [(s, v)]) >>=
      fun e => .ok (Dict.update [] e)) := by
    refine loop_update (fun d s hs => ?_) []
    rw [hf d s hs]
    cases g s with
    | error e => rfl
    | ok v => rfl
  rw [hu] at h
  obtain ⟨es, hes, h⟩ := bind_ok h
  cases h
  have hmem : ∀ k v, (k, v) ∈ es ↔ k ∈ l ∧ g k = .ok v := by
    intro k v
    rw [mem_collect hes]
    constructor
    · rintro ⟨s, hs, a, ha, hin⟩
      obtain ⟨w, hw, ha⟩ := bind_ok ha
      cases ha
      simp only [List.mem_singleton, Prod.mk.injEq] at hin
      obtain ⟨rfl, rfl⟩ := hin
      exact ⟨hs, hw⟩
    · rintro ⟨hk, hv⟩
      exact ⟨k, hk, [(k, v)], by rw [hv]; rfl, by simp⟩
  have hiff : ∀ k v, Dict.get? (Dict.update [] es) k = some v ↔ k ∈ l ∧ g k = .ok v := by
    intro k v
    rw [get?_build ?_ k v, hmem]
    intro k v v' h1 h2
    have h3 := ((hmem _ _).1 h1).2
    rw [((hmem _ _).1 h2).2] at h3
    cases h3; rfl
  constructor
  · intro s hs
    cases hg : Dict.get? (Dict.update [] es) s with
    | none => rfl
    | some v => exact absurd ((hiff s v).1 hg).1 hs
  · intro s hs
    obtain ⟨a, ha, _⟩ := (collect_ok hes).1 s hs
    obtain ⟨w, hw, _⟩ := bind_ok ha
    exact ⟨w, hw, (hiff s w).2 ⟨hs, hw⟩⟩

theorem station_loop_ok {V : Type} {l : List String}
    {f : Dict String V → String → Py (Dict String V)}
    {g : String → Py V} (hf : ∀ d, ∀ s ∈ l, f d s = (g s >>= fun v => .ok (Dict.set d s v)))
    (hg : ∀ s ∈ l, ∃ v, g s = .ok v) (d : Dict String V) : ∃ r, loop l f d = .ok r := by
  induction l generalizing d with
  | nil => exact ⟨d, rfl⟩
  | cons s l ih =>
    obtain ⟨v, hv⟩ := hg s List.mem_cons_self
    simp only [loop]
    rw [hf d s List.mem_cons_self, hv]
    exact ih (fun d s hs => hf d s (List.mem_cons_of_mem _ hs))
      (fun s hs => hg s (List.mem_cons_of_mem _ hs)) _

end Verif
