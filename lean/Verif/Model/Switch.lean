import Verif.Model.Utils

/-!
# Model of `data_formatting/data_formatting/make_switch_set.py`

Sets of switches are lists; only membership is used.
-/

namespace Verif

/-- positions of a block in a column -/
def positions (col : List String) (b : String) : List Nat :=
  (List.range col.length).filter fun i => decide (col[i]? = some b)

/-- `block_indices_to_interprete_switches(data_path_check, previous_block, next_block)`, lines
6-25 -/
def blockIndices (table : List PathRow) (prev next : String) : List Nat × List Nat :=
  (positions (table.map (·.prev)) prev ++ positions (table.map (·.next)) prev,
   positions (table.map (·.prev)) next ++ positions (table.map (·.next)) next)

/-- Interpretation of one cell, lines 57-66: a float `12.5` becomes the tuple `(12, 5)`; an empty
cell is the float `nan`, whose text is an undefined name; `eval` of an `int` raises `TypeError`. -/
def evalSwitch : SwitchCell → Py (List Int)
  | .float a b => .ok [(a : Int), (b : Int)]
  | .nan => .error .nameError
  | .int _ => .error .typeError
  | .textInt n => .ok [n]
  | .textTuple l => .ok l
  | .textBad e => .error e

/-- lines 45-68: the switches between two blocks; the last of several rows wins -/
def switchesBetween (table : List PathRow) (prev next : String) : Py (List Int) :=
  let p := blockIndices table prev next
  let pos := commonElements p.2 p.1
  loop pos (fun _ i => do
    let r ← label table i
    evalSwitch r.switches) []

/-- the block before position `i` (Python's index `-1` is the last element), line 43 -/
def blockBefore (blocks : List String) (i : Nat) : Py String :=
  if i = 0 then nth blocks (blocks.length - 1) else nth blocks (i - 1)

/-- Outcome of a pass through the loop: `return` or the current value of `switch` (possibly
unbound) -/
inductive ZState
  | returned (v : List Int)
  | running (switch : Option (List Int))

/-- the final `return switch` -/
def ZState.finish : ZState → Py (List Int)
  | .returned v => .ok v
  | .running (some v) => .ok v
  | .running none => .error .unboundLocal

/-- `z_in(data_path_check, j, s, paths, station_blocks, blocks_lists)`, lines 28-70, given
`paths[j]`, `station_blocks[j]` and `blocks_lists[j]` -/
def zIn (table : List PathRow) (s : String) (sts stationBlock blocks : List String) :
    Py (List Int) := do
  let st ← loop blocks.zipIdx (fun (z : ZState) e =>
    match z with
    | .returned v => .ok (.returned v)
    | .running sw => do
      let b0 ← nth stationBlock 0
      if e.1 = b0 then do
        let next ← nth blocks e.2
        let k ← index sts s
        if k = 0 then .ok (.returned [])
        else do
          let prev ← blockBefore blocks e.2
          let v ← switchesBetween table prev next
          .ok (.running (some v))
      else .ok (.running sw)) (.running none)
  st.finish

/-- `z_out(data_path_check, j, s, paths, station_blocks, blocks_lists)`, lines 73-115 -/
def zOut (table : List PathRow) (s : String) (sts stationBlock blocks : List String) :
    Py (List Int) := do
  let st ← loop blocks.zipIdx (fun (z : ZState) e =>
    match z with
    | .returned v => .ok (.returned v)
    | .running sw => do
      let b0 ← nth stationBlock 0
      if e.1 = b0 then do
        let prev ← nth blocks e.2
        let k ← index sts s
        if k = sts.length - 1 then .ok (.returned [])
        else do
          let next ← nth blocks (e.2 + 1)
          let v ← switchesBetween table prev next
          .ok (.running (some v))
      else .ok (.running sw)) (.running none)
  st.finish

end Verif
