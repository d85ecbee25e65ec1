import Verif.Model.Print
import Mathlib.Data.List.Sort

/-!
# Model of the train diagrams and statistics of `/repo/solutions_quantum/data4diagrams`

Input is what `print_optimisation_results` has written. Line numbers refer to `train_utils.py`,
`railway_lines.py`, `echo_gnuplot_file.py` and `visualise_statistics.py`, as named. Times are minutes
as in `Model/Print`; kilometres are exact. Not modelled: reading of files and of the command line, the
text of the gnuplot script around the points, the formats `%f` and `%H:%M`, and the figures and `numpy`
functions of `visualise_statistics.py`.
-/

namespace Verif

/-- an element of `train.path`, `train_utils.py`, lines 45-48 -/
structure PathPoint where
  station : Val
  arrival : Option ℤ
  departure : Option ℤ
  deriving DecidableEq

/-- `class TrainPath`, `train_utils.py`, lines 4-9 -/
structure TrainPath where
  number : String
  status : String
  route : List Val
  path : List PathPoint
  deriving DecidableEq

/-- `arrival_for_sort(x)`, `train_utils.py`, lines 15-20; `epoch` is the first of January 1899 -/
def arrivalForSort (epoch : ℤ) (x : Printed) : ℤ := x.arrive.getD epoch

/-- `none_if_not(x, prefix + 'arrive')`, `train_utils.py`, lines 22-27 and 41-46 -/
def noneIfNotArrive (status : String) (x : Printed) : Option ℤ :=
  if status = "conflicted" then x.conflictedArrive else x.arrive

/-- `none_if_not(x, prefix + 'departure')`, `train_utils.py`, lines 22-27 and 41-47 -/
def noneIfNotDeparture (status : String) (x : Printed) : Option ℤ :=
  if status = "conflicted" then x.conflictedDeparture else x.departure

/-- `train.route`, `train_utils.py`, lines 36-40. `sorted` keeps the order of equal keys, as
insertion sort does. -/
def routeOf (epoch : ℤ) (kd : Dict Val Printed) : List Val :=
  ((kd.map fun x => (x.1, arrivalForSort epoch x.2)).insertionSort fun a b => a.2 ≤ b.2).map Prod.fst

/-- `kdtrain2trainpath(trainNumber, kdtrain, status)`, `train_utils.py`, lines 29-49 -/
def kdtrain2trainpath (epoch : ℤ) (number : Val) (kd : Dict Val Printed) (status : String) :
    Py TrainPath := do
  let route := routeOf epoch kd
  let path ← route.mapM fun k => do
    let x ← Dict.at! kd k
    .ok ⟨k, noneIfNotArrive status x, noneIfNotDeparture status x⟩
  .ok ⟨number.render, status, route, path⟩

/-- a station of a segment, `railway_lines.py`; the key `type` is not used -/
structure SegStation where
  name : String
  callsign : String
  km : ℚ
  deriving DecidableEq

/-- `str.upper` for the letters of the ASCII set and the Polish ones -/
def upperChar (c : Char) : Char :=
  match c with
  | 'ą' => 'Ą' | 'ć' => 'Ć' | 'ę' => 'Ę' | 'ł' => 'Ł' | 'ń' => 'Ń' | 'ó' => 'Ó' | 'ś' => 'Ś' | 'ź' => 'Ź'
  | 'ż' => 'Ż' | c => c.toUpper

def upper (s : String) : List Char := s.toList.map upperChar

/-- the condition of the filters, `railway_lines.py`, lines 96 and 103 -/
def SegStation.called (x : SegStation) (station : String) : Bool :=
  decide (upper x.callsign = upper station) || decide (upper x.name = upper station)

/-- `station2km(station, segment)`, `railway_lines.py`, lines 93-99; `none` stands for the
`ValueError`, which is raised for all exceptions -/
def station2km (seg : List SegStation) (station : Val) : Option ℚ :=
  match station with
  | .str s => (seg.find? (·.called s)).map (·.km)
  | _ => none

/-- `station_on_segment(station, segment, exceptions)`, `railway_lines.py`, lines 101-105 -/
def stationOnSegment (seg : List SegStation) (exceptions : List String) (station : String) : Bool :=
  decide (0 < (seg.filter fun x => x.called station &&
    !decide (upper station ∈ exceptions.map upper)).length)

/-- `train_on_segment(train, segment, exceptions)`, `railway_lines.py`, lines 107-108; an error for a
station that is not a text is not modelled -/
def trainOnSegment (seg : List SegStation) (exceptions : List String) (train : TrainPath) : Nat :=
  (train.route.filter fun s => match s with
    | .str s => stationOnSegment seg exceptions s
    | _ => false).length

/-- `EXCEPTIONS`, `echo_gnuplot_file.py`, line 126 -/
def diagramExceptions : List String := ["KO", "KO(STM)"]

/-- the condition of lines 132 and 151 of `echo_gnuplot_file.py` -/
def isDrawn (seg : List SegStation) (fixed : List String) (train : TrainPath) : Bool :=
  decide (2 ≤ trainOnSegment seg diagramExceptions train) || decide (train.number ∈ fixed)

/-- the points printed for one station, `echo_gnuplot_file.py`, lines 58-65 -/
def pointsAt (seg : List SegStation) (s : PathPoint) : List (ℚ × ℤ) :=
  match station2km seg s.station with
  | some km => (s.arrival.toList ++ s.departure.toList).map fun t => (km, t)
  | none => []

/-- `echo_gnuplot_train(train, segment)`, `echo_gnuplot_file.py`, lines 56-65 -/
def echoTrain (seg : List SegStation) (train : TrainPath) : List (ℚ × ℤ) :=
  train.path.flatMap (pointsAt seg)

/-- body of the loop of `echo_gnuplot_train_labels`, `echo_gnuplot_file.py`, lines 69-80: `prev` are
`prev_km` and `prev_t`, which are set together; the seconds of the time of a label are not printed -/
def labelStep (seg : List SegStation) (number : String) (s : PathPoint)
    (acc : Option (ℚ × ℤ) × List (ℚ × ℤ × String)) : Option (ℚ × ℤ) × List (ℚ × ℤ × String) :=
  match station2km seg s.station with
  | none => acc
  | some km =>
    let labels := match s.arrival, acc.1 with
      | some a, some (prevKm, prevT) => acc.2 ++
          [(prevKm + (km - prevKm) / 2, ⌊(prevT : ℚ) + ((a : ℚ) - prevT) / 2⌋, number)]
      | _, _ => acc.2
    match s.departure with
    | some d => (some (km, d), labels)
    | none => (acc.1, labels)

/-- `echo_gnuplot_train_labels(train, segment)`, `echo_gnuplot_file.py`, lines 67-80 -/
def echoLabels (seg : List SegStation) (train : TrainPath) : List (ℚ × ℤ × String) :=
  (train.path.foldl (fun acc s => labelStep seg train.number s acc) (none, [])).2

/-- one train in one of the two states -/
structure Drawn where
  lineno : Nat
  status : String
  points : List (ℚ × ℤ)
  labels : List (ℚ × ℤ × String)
  deriving DecidableEq

/-- the first loop of the script, `echo_gnuplot_file.py`, lines 128-139: data blocks, numbered -/
def diagramBlocks (epoch : ℤ) (seg : List SegStation) (fixed : List String)
    (d : Dict Val (Dict Val Printed)) : Py (Nat × List Drawn) :=
  loop d (fun acc e => loop ["resolved", "conflicted"] (fun acc status => do
    let train ← kdtrain2trainpath epoch e.1 e.2 status
    if isDrawn seg fixed train then
      .ok (acc.1 + 1, acc.2 ++ [⟨acc.1, status, echoTrain seg train, echoLabels seg train⟩])
    else .ok acc) acc) (0, [])

/-- the second loop, `echo_gnuplot_file.py`, lines 141-155: number of the data block and style of the
line, 1 or 2 -/
def diagramPlots (epoch : ℤ) (seg : List SegStation) (fixed : List String)
    (d : Dict Val (Dict Val Printed)) : Py (Nat × List (Nat × Nat)) :=
  loop d (fun acc e => loop ["resolved", "conflicted"] (fun acc status => do
    let ls := if status = "conflicted" then 2 else 1
    let train ← kdtrain2trainpath epoch e.1 e.2 status
    if isDrawn seg fixed train then .ok (acc.1 + 1, acc.2 ++ [(acc.1, ls)])
    else .ok acc) acc) (0, [])

/-! ## The tables of `railway_lines.py` -/

/-- `RAILWAYSEGMENTS['137139GLYTy']`, `railway_lines.py`, lines 38-51 -/
def seg137139GLYTy : List SegStation := [
  ⟨"Gliwice", "GLC", 0⟩,
  ⟨"Zabrze", "ZZ", 818 / 100⟩,
  ⟨"Ruda Śląska", "RŚl", 1250 / 100⟩,
  ⟨"Ruda Chebzie", "RCB", 1536 / 100⟩,
  ⟨"Świętochłowice", "", 1869 / 100⟩,
  ⟨"Chorzów Batory", "CB", 2094 / 100⟩,
  ⟨"Katowice Towarowa KTC", "KTC", 2419 / 100⟩,
  ⟨"Katowice", "KO", 2671 / 100⟩,
  ⟨"Katowice Brynów", "Bry", 3059 / 100⟩,
  ⟨"Katowice Ligota", "KL", 3667 / 100⟩,
  ⟨"Katowice Piotrowice", "KtP", 4442 / 100⟩,
  ⟨"Katowice Podlesie", "", 5577 / 100⟩,
  ⟨"Mąkołowiec", "Mc", 6981 / 100⟩,
  ⟨"Tychy", "Ty", 8678 / 100⟩]

/-- `RAILWAYSEGMENTS['137138GLYKZ']`, `railway_lines.py`, lines 52-61 -/
def seg137138GLYKZ : List SegStation := [
  ⟨"Gliwice", "GLC", 0⟩,
  ⟨"Zabrze", "ZZ", 818 / 100⟩,
  ⟨"Ruda Śląska", "RSl", 1250 / 100⟩,
  ⟨"Ruda Chebzie", "RCB", 1536 / 100⟩,
  ⟨"Świętochłowice", "", 1869 / 100⟩,
  ⟨"Chorzów Batory", "CB", 2094 / 100⟩,
  ⟨"Katowice Towarowa KTC", "KTC", 2419 / 100⟩,
  ⟨"Katowice", "KO", 2671 / 100⟩,
  ⟨"Katowice Stacja Manewrowa", "KO(STM)", 2721 / 100⟩,
  ⟨"Katowice Zawodzie", "KZ", 2943 / 100⟩]

/-- `RAILWAYSEGMENTS['138139KZTY']`, `railway_lines.py`, lines 62-70 -/
def seg138139KZTY : List SegStation := [
  ⟨"Katowice Zawodzie", "KZ", 0⟩,
  ⟨"Katowice Stacja Manewrowa", "KO(STM)", 221 / 100⟩,
  ⟨"Katowice", "KO", 271 / 100⟩,
  ⟨"Katowice Brynów", "Bry", 660 / 100⟩,
  ⟨"Katowice Ligota", "KL", 880 / 100⟩,
  ⟨"Katowice Piotrowice", "KtP", 1047 / 100⟩,
  ⟨"Katowice Podlesie", "", 1407 / 100⟩,
  ⟨"Mąkołowiec", "Mc", 1676 / 100⟩,
  ⟨"Tychy", "Ty", 1969 / 100⟩]

/-- `RAILWAYLINES['131']`, `railway_lines.py`, lines 8-9 -/
def line131 : List SegStation := [
  ⟨"Chorzów Batory", "CB", 616 / 100⟩,
  ⟨"Chorzów Miasto", "CM", 898 / 100⟩]

/-- `RAILWAYLINES['137']`, `railway_lines.py`, lines 10-17 -/
def line137 : List SegStation := [
  ⟨"Katowice", "KO", 39 / 100⟩,
  ⟨"Katowice Towarowa KTC", "KTC", 291 / 100⟩,
  ⟨"Chorzów Batory", "CB", 616 / 100⟩,
  ⟨"Świętochłowice", "", 841 / 100⟩,
  ⟨"Ruda Chebzie", "RC", 1174 / 100⟩,
  ⟨"Ruda Śląska", "RŚl", 1460 / 100⟩,
  ⟨"Zabrze", "Zz", 1892 / 100⟩,
  ⟨"Gliwice", "Gl", 2710 / 100⟩]

/-- `RAILWAYLINES['138']`, `railway_lines.py`, lines 18-19 -/
def line138 : List SegStation := [
  ⟨"Katowice Zawodzie", "Kz", 3024 / 100⟩,
  ⟨"Katowice", "KO", 3296 / 100⟩]

/-- `RAILWAYLINES['139']`, `railway_lines.py`, lines 20-26 -/
def line139 : List SegStation := [
  ⟨"Katowice", "KO", 0⟩,
  ⟨"Katowice Brynów", "Bry", 388 / 100⟩,
  ⟨"Katowice Ligota", "KL", 608 / 100⟩,
  ⟨"Katowice Piotrowice", "KtP", 775 / 100⟩,
  ⟨"Katowice Podlesie", "", 1135 / 100⟩,
  ⟨"Mąkołowiec", "Mc", 1404 / 100⟩,
  ⟨"Tychy", "Ty", 1697 / 100⟩]

/-- `RAILWAYLINES['140']`, `railway_lines.py`, lines 27-30 -/
def line140 : List SegStation := [
  ⟨"Katowice Ligota", "KL", 0⟩,
  ⟨"Katowice Piotrowice", "KtP", 166 / 100⟩,
  ⟨"Mikołów Jamna", "MJ", 586 / 100⟩,
  ⟨"Mikołów", "Mi", 875 / 100⟩]

/-- `RAILWAYLINES['depot527']`, `railway_lines.py`, lines 31-32 -/
def linedepot527 : List SegStation := [
  ⟨"Katowice Stacja Manewrowa", "KO(STM)", 0⟩,
  ⟨"Katowice Zawodzie Postojowa", "KO(IC)", 90 / 100⟩]

/-- `RAILWAYLINES['depot200']`, `railway_lines.py`, lines 33-34 -/
def linedepot200 : List SegStation := [
  ⟨"Katowice", "KO", 0⟩,
  ⟨"Katowice Raciborska", "KO(KS)", 50 / 100⟩]

/-- `RAILWAYSEGMENTS`, `railway_lines.py`, lines 37-71 -/
def railwaySegments : List (List SegStation) := [seg137139GLYTy, seg137138GLYKZ, seg138139KZTY]

/-- `RAILWAYLINES`, `railway_lines.py`, lines 7-34 -/
def railwayLines : List (List SegStation) :=
  [line131, line137, line138, line139, line140, linedepot527, linedepot200]

/-! ## Statistics -/

/-- body of the inner loop of `add_delays_one_realisation`, `visualise_statistics.py`, lines 11-22; an
integer is not equal to the empty text -/
def addDelayAt (delays : Dict Val (List ℤ)) (s : Val × Printed) : Dict Val (List ℤ) :=
  match s.2.secondaryDelay with
  | some x => match Dict.get? delays s.1 with
    | some v => Dict.set delays s.1 (v ++ [x])
    | none => Dict.set delays s.1 [x]
  | none => delays

/-- `add_delays_one_realisation(delays, d)`, `visualise_statistics.py`, lines 7-22 -/
def addDelaysOneRealisation (delays : Dict Val (List ℤ)) (d : Dict Val (Dict Val Printed)) :
    Dict Val (List ℤ) :=
  d.foldl (fun delays train => train.2.foldl addDelayAt delays) delays

/-- `numpy.min`, `numpy.max`, `numpy.mean` of the list of a station, `visualise_statistics.py`, lines
26, 29, 30 -/
def npMin (xs : List ℤ) : Option ℤ := xs.min?
def npMax (xs : List ℤ) : Option ℤ := xs.max?
def npMean (xs : List ℤ) : ℚ := (xs.sum : ℚ) / xs.length

/-- `numpy.quantile(xs, q)` for `0 ≤ q < 1`, linear interpolation, `visualise_statistics.py`, lines 27,
28; exact instead of floating point -/
def npQuantile (xs : List ℤ) (q : ℚ) : Option ℚ :=
  let s := xs.insertionSort (· ≤ ·)
  let v : ℚ := q * (xs.length - 1)
  let i := v.floor.toNat
  match s[i]? with
  | none => none
  | some a => match s[i + 1]? with
    | none => some a
    | some b => some (a + (b - a) * (v - v.floor))

/-- what is printed for a station -/
structure DelayStats where
  maximum : Option ℤ
  q75 : Option ℚ
  mean : ℚ
  q25 : Option ℚ
  minimum : Option ℤ
  deriving DecidableEq

/-- `get_print_statistics(delays, considered_stations)`, `visualise_statistics.py`, lines 24-40, one
entry for every station; `KeyError` for a station without delays -/
def getPrintStatistics (delays : Dict Val (List ℤ)) (stations : List Val) : Py (List DelayStats) :=
  stations.mapM fun e => do
    let xs ← Dict.at! delays e
    .ok ⟨npMax xs, npQuantile xs (3 / 4), npMean xs, npQuantile xs (1 / 4), npMin xs⟩

/-- `considered_stations`, `visualise_statistics.py`, lines 70, 84 -/
def consideredStations : List Val :=
  [.str "KO(STM)", .str "KO", .str "CB", .str "KL", .str "MJ"]

end Verif
