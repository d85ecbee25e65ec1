import Verif.Model.NewTT

/-!
# Notions for the data formatting properties

Stations own blocks, tables of trains carry the stations of their blocks. Nothing here refers to
how the code computes them.
-/

namespace Verif

/-- the block is one of the blocks of the station -/
def BelongsTo (st : Stations) (b s : String) : Prop := ∃ bs, (s, bs) ∈ st ∧ b ∈ bs

/-- no block belongs to two stations, and no station is listed twice -/
def DisjointStations (st : Stations) : Prop :=
  (Dict.keys st).Nodup ∧ ∀ b s s', BelongsTo st b s → BelongsTo st b s' → s = s'

/-- the column `important_station` of a timetable is right -/
def TaggedRows (st : Stations) (tt : List Row) : Prop :=
  ∀ r ∈ tt, ∀ s, r.station = some s ↔ BelongsTo st r.path s

/-- the column `important_station` is right in all timetables -/
def Tagged (st : Stations) (td : Trains) : Prop := ∀ e ∈ td, TaggedRows st e.2.2

/-- the timetable of a train -/
def TableOf (td : Trains) (t : Int) (tt : List Row) : Prop := ∃ info, Dict.get? td t = some (info, tt)

/-- the two blocks are joined by the row of the path table, in one direction or the other -/
def Joins (r : PathRow) (a b : String) : Prop :=
  (r.prev = a ∧ r.next = b) ∨ (r.prev = b ∧ r.next = a)

/-- the passing time that a row of the path table gives for the run from `a` to `b` at speed class
`R` (regional) or `IC` (inter city) -/
def RowTime (r : PathRow) (a b : String) (speed : Option String) (v : Option ℚ) : Prop :=
  (r.prev = a ∧ r.next = b ∧
    ((speed = some "R" ∧ v = r.rAB) ∨ (speed = some "IC" ∧ v = r.icAB))) ∨
  (r.prev = b ∧ r.next = a ∧
    ((speed = some "R" ∧ v = r.rBA) ∨ (speed = some "IC" ∧ v = r.icBA)))

/-- the train has at most one block of each station -/
def OnceEach (tt : List Row) : Prop := (tt.filterMap (·.station)).Nodup

/-- no block occurs twice in the timetable -/
def BlocksOnce (tt : List Row) : Prop := (tt.map (·.path)).Nodup

/-- `s'` is the next important station of the train after `s`, and `mid` are the rows between -/
def Consecutive (tt : List Row) (s s' : String) (mid : List Row) : Prop :=
  ∃ pre r1 r2 post, tt = pre ++ r1 :: mid ++ r2 :: post ∧ r1.station = some s ∧
    r2.station = some s' ∧ ∀ r ∈ mid, r.station = none

/-- the passing times of the rows of a timetable; an empty cell counts as 0 -/
def timesOf (rows : List Row) : List ℚ := rows.map fun r => r.passingTime.getD 0

end Verif
