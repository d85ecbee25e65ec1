import Verif.Spec.Data
import Verif.Proofs.Loops

/-!
# Facts about the tables built by `update_all_timetables`
-/

namespace Verif

theorem getBlockStation_belongs {b s : String} {st : Stations} (h : getBlockStation b st = some s) :
    BelongsTo st b s := by
  unfold getBlockStation at h
  have := List.mem_of_head? h
  rw [List.mem_map] at this
  obtain ⟨⟨s', bs⟩, h1, rfl⟩ := this
  rw [List.mem_filter] at h1
  exact ⟨bs, h1.1, by simpa using h1.2⟩

theorem getBlockStation_isSome {b s : String} {st : Stations} (h : BelongsTo st b s) :
    ∃ s', getBlockStation b st = some s' := by
  obtain ⟨bs, h1, h2⟩ := h
  unfold getBlockStation
  have : s ∈ (st.filter fun e => decide (b ∈ e.2)).map Prod.fst :=
    List.mem_map.2 ⟨(s, bs), List.mem_filter.2 ⟨h1, by simpa using h2⟩, rfl⟩
  cases h3 : ((st.filter fun e => decide (b ∈ e.2)).map Prod.fst) with
  | nil => rw [h3] at this; cases this
  | cons x _ => exact ⟨x, rfl⟩

theorem getBlockStation_iff {b s : String} {st : Stations} (hd : DisjointStations st) :
    getBlockStation b st = some s ↔ BelongsTo st b s := by
  constructor
  · exact getBlockStation_belongs
  · intro h
    obtain ⟨s', h'⟩ := getBlockStation_isSome h
    rw [h', hd.2 b s s' h (getBlockStation_belongs h')]

theorem updateTimetable_rows {table : List PathRow} {st : Stations} {tt : List RawRow}
    {tt' : List Row} (h : updateTimetable table st tt = .ok tt') :
    tt'.map (·.toRawRow) = tt ∧ (∀ r ∈ tt', r.station = getBlockStation r.path st) ∧
      ∃ ts, passingTimes4blocks table tt = .ok ts ∧ (tt ≠ [] → tt'.map (·.passingTime) = ts) := by
  obtain ⟨ts, h1, h2⟩ := bind_ok h
  simp only [Except.ok.injEq] at h2
  subst h2
  have hlen : tt ≠ [] → ts.length = tt.length := by
    intro hne
    obtain ⟨us, h3, h4⟩ := bind_ok h1
    simp only [Except.ok.injEq] at h4
    subst h4
    have := (mapPy_forall₂ h3).length_eq
    simp only [List.length_zip, List.length_map, List.length_drop] at this
    have : 0 < tt.length := List.length_pos_of_ne_nil hne
    simp; omega
  refine ⟨?_, ?_, ts, h1, ?_⟩
  · by_cases hne : tt = []
    · subst hne; rfl
    · rw [List.map_map]
      have : (fun x : RawRow × Option ℚ => x.1) = Prod.fst := rfl
      rw [show ((fun x : Row => x.toRawRow) ∘ fun x : RawRow × Option ℚ =>
        ({ x.1 with passingTime := x.2, station := getBlockStation x.1.path st } : Row)) = Prod.fst
        from rfl]
      exact List.map_fst_zip (by rw [hlen hne])
  · intro r hr
    obtain ⟨x, _, rfl⟩ := List.mem_map.1 hr
    rfl
  · intro hne
    rw [List.map_map]
    rw [show ((fun x : Row => x.passingTime) ∘ fun x : RawRow × Option ℚ =>
        ({ x.1 with passingTime := x.2, station := getBlockStation x.1.path st } : Row)) = Prod.snd
        from rfl]
    exact List.map_snd_zip (by rw [hlen hne])

theorem updateAll_forall₂ {table : List PathRow} {st : Stations} {td0 : Dict Int (Entry RawRow)}
    {td : Trains} (h : updateAllTimetables table st td0 = .ok td) :
    List.Forall₂ (fun (e : Int × Entry RawRow) (e' : Int × Entry Row) =>
      e'.1 = e.1 ∧ e'.2.1 = e.2.1 ∧ updateTimetable table st e.2.2 = .ok e'.2.2) td0 td := by
  refine (mapPy_forall₂ h).imp ?_
  intro e e' h1
  obtain ⟨tt, h2, h3⟩ := bind_ok h1
  simp only [Except.ok.injEq] at h3
  subst h3
  exact ⟨rfl, rfl, h2⟩

theorem updateAll_station {table : List PathRow} {st : Stations} {td0 : Dict Int (Entry RawRow)}
    {td : Trains} (h : updateAllTimetables table st td0 = .ok td) :
    ∀ e ∈ td, ∀ r ∈ e.2.2, r.station = getBlockStation r.path st := by
  intro e he
  obtain ⟨e0, _, _, _, h1⟩ := forall₂_right (updateAll_forall₂ h) he
  exact (updateTimetable_rows h1).2.1

theorem updateAll_tagged {table : List PathRow} {st : Stations} {td0 : Dict Int (Entry RawRow)}
    {td : Trains} (hd : DisjointStations st) (h : updateAllTimetables table st td0 = .ok td) :
    Tagged st td := by
  intro e he r hr s
  rw [updateAll_station h e he r hr]
  exact getBlockStation_iff hd

theorem updateAll_keys {table : List PathRow} {st : Stations} {td0 : Dict Int (Entry RawRow)}
    {td : Trains} (h : updateAllTimetables table st td0 = .ok td) :
    Dict.keys td = Dict.keys td0 := by
  have := updateAll_forall₂ h
  clear h
  induction this with
  | nil => rfl
  | cons h1 _ ih => simp only [Dict.keys, List.map_cons, h1.1] at ih ⊢; rw [ih]

/-- updating keeps the information and the rows of every train -/
theorem updateAll_get? {table : List PathRow} {st : Stations} {td0 : Dict Int (Entry RawRow)}
    {td : Trains} (h : updateAllTimetables table st td0 = .ok td) (t : Int) :
    (Dict.get? td t).map (fun e => (e.1, e.2.map (·.toRawRow))) = Dict.get? td0 t := by
  have := updateAll_forall₂ h
  clear h
  induction this with
  | nil => rfl
  | @cons a b _ _ h1 _ ih =>
    obtain ⟨k, i, tt⟩ := a
    obtain ⟨k', i', tt'⟩ := b
    obtain ⟨h2, h3, h4⟩ := h1
    simp only at h2 h3 h4
    subst h2 h3
    simp only [Dict.get?]
    split
    · simp [(updateTimetable_rows h4).1]
    · exact ih

end Verif
