import Verif.Spec.Feasible
import Verif.Spec.Names

/-!
# Dispatching rules

The rules that users of the linear solver rely on, stated about departure times and precedences,
without reference to constraints, big-M constants or the order in which things are listed.
Only the data types, dictionary lookups and key strings of the model are used, plus
`earliestDepTime` inside `Departs` (which has its own specification, C14).
-/

namespace Verif

/-- `p` is the station before `s` on the path (`None` if `s` is the first one) -/
def PrevOn (path : List Val) (s p : Val) : Prop :=
  (∃ l r, path = l ++ p :: s :: r ∧ s ∉ l ∧ p ≠ s) ∨ (∃ r, path = s :: r ∧ p = .none)

/-- `p` is the station before `s` on the path of train `j` -/
def PrevOf (ts : TrainSets) (j s p : Val) : Prop :=
  ∃ path, Dict.get? ts.paths j = some path ∧ PrevOn path s p

/-- tabulated times -/
def Headway (tt : Timetable) (j jp s sp : Val) (h : ℚ) : Prop :=
  Dict.get? tt.tauHeadway (key4 j jp s sp) = some h
def Pass (tt : Timetable) (j s sp : Val) (h : ℚ) : Prop :=
  Dict.get? tt.tauPass (key3 j s sp) = some h
def Stop (tt : Timetable) (j s : Val) (h : ℚ) : Prop :=
  Dict.get? tt.tauStop (key2 j s) = some h
def Prep (tt : Timetable) (j s : Val) (h : ℚ) : Prop :=
  Dict.get? tt.tauPrep (key2 j s) = some h
def Res (tt : Timetable) (r : ℚ) : Prop := tt.tauRes = some r

/-- the two trains form a pair of `Jround` at some station: same rolling stock -/
def SameStock (ts : TrainSets) (j jp : Val) : Prop :=
  j ≠ jp ∧ ∃ e ∈ ts.Jround, (j, jp) ∈ e.2 ∨ (jp, j) ∈ e.2

/-- train `jp` continues train `j` at `s` -/
def ContinuedBy (ts : TrainSets) (j s jp : Val) : Prop :=
  ∃ ps, Dict.get? ts.Jround s = some ps ∧ ps.find? (fun p => p.1 = j) = some (j, jp) ∧ jp ≠ .none

/-- train `j` takes over the rolling stock of train `jr` at `s` -/
def TakesOver (ts : TrainSets) (j s jr : Val) : Prop :=
  ∃ ps, Dict.get? ts.Jround s = some ps ∧ ps.find? (fun p => p.2 = j) = some (jr, j) ∧ jr ≠ .none

/-- train `j` does not call at `s` -/
def Skips (ts : TrainSets) (j s : Val) : Prop :=
  ∃ d, ts.skipStation = some d ∧ Dict.get? d j = some s

/-- train `j` has a delay variable at `s` -/
def HasDelay (ts : TrainSets) (j s : Val) : Prop :=
  j ∈ ts.J ∧ (∃ path, Dict.get? ts.paths j = some path ∧ s ∈ path) ∧ ¬ Skips ts j s ∧
    ∀ jp, ¬ ContinuedBy ts j s jp

/-! ## Precedences -/

/-- `j` before `jp` at station `s` -/
def First3 (y : OrderVars) (σ : LpVar → ℚ) (j jp s : Val) : Prop :=
  (∃ v, at4 y j jp oneStation s = .ok v ∧ σ v = 1) ∨
  (∃ v, at4 y jp j oneStation s = .ok v ∧ σ v = 0)

/-- `j` leaving `s` before `jp` leaving `sp` -/
def First4 (y : OrderVars) (σ : LpVar → ℚ) (j jp s sp : Val) : Prop :=
  (∃ v, at4 y j jp s sp = .ok v ∧ σ v = 1) ∨
  (∃ v, at4 y jp j sp s = .ok v ∧ σ v = 0)

/-- `j` entering `s` before `jp` -/
def FirstIn (y : OrderVars) (σ : LpVar → ℚ) (j jp s : Val) : Prop :=
  (∃ v, at4 y inKey j jp s = .ok v ∧ σ v = 1) ∨
  (∃ v, at4 y inKey jp j s = .ok v ∧ σ v = 0)

/-! ## Rules

Parameters: `D j s t` "train `j` leaves `s` at `t`"; `F3`, `F4`, `FI` the precedences. -/

section
variable (ts : TrainSets) (tt : Timetable) (D : Val → Val → ℚ → Prop)
  (F3 : Val → Val → Val → Prop) (F4 : Val → Val → Val → Val → Prop) (FI : Val → Val → Val → Prop)

/-- trains of a group of `Jd[s][sp]` leave `s` at least the headway apart -/
def HeadwayRule : Prop :=
  ∀ e ∈ ts.Jd, ∀ e2 ∈ e.2, ∀ g ∈ e2.2, ∀ j ∈ g, ∀ jp ∈ g, j ≠ jp → F3 j jp e.1 →
    ∀ t tp h, D j e.1 t → D jp e.1 tp → Headway tt j jp e.1 e2.1 h → t + h ≤ tp

/-- of two opposing trains on a single-track line the second enters when the first has left;
`(j, jp)` is listed under `(s, sp)`: `j` runs `s → sp`, `jp` runs `sp → s` -/
def SingleLineRule : Prop :=
  ∀ e ∈ ts.Josingle, ∀ p ∈ e.2, ¬ SameStock ts p.1 p.2 →
    (F4 p.1 p.2 e.1.1 e.1.2 → ∀ t tp h, D p.1 e.1.1 t → D p.2 e.1.2 tp →
      Pass tt p.1 e.1.1 e.1.2 h → t + h ≤ tp) ∧
    (F4 p.2 p.1 e.1.2 e.1.1 → ∀ t tp h, D p.1 e.1.1 t → D p.2 e.1.2 tp →
      Pass tt p.2 e.1.2 e.1.1 h → tp + h ≤ t)

/-- running time and dwell time -/
def StayRule : Prop :=
  ∀ j ∈ ts.J, ∀ s p, PrevOf ts j s p → p ≠ .none →
    ∀ t tp w st, D j p t → D j s tp → Pass tt j p s w → Stop tt j s st → t + w + st ≤ tp

/-- a train does not leave before its rolling stock has arrived and is prepared -/
def CirculationRule : Prop :=
  ∀ e ∈ ts.Jround, ∀ q ∈ e.2, ∀ p, PrevOf ts q.1 e.1 p →
    ∀ t tp w pr, D q.1 p t → D q.2 e.1 tp → Pass tt q.1 p e.1 w → Prep tt q.2 e.1 pr →
      t + w + pr ≤ tp

/-- arrival of train `j` at `s`: of the train it takes the rolling stock from, else its own,
else (it starts at `s`) its earliest departure -/
def Arrives (j s : Val) (a : ℚ) : Prop :=
  (∃ jr p t w, TakesOver ts j s jr ∧ PrevOf ts jr s p ∧ D jr p t ∧ Pass tt jr p s w ∧ a = t + w) ∨
  ((∀ jr, ¬ TakesOver ts j s jr) ∧ ∃ p t w, PrevOf ts j s p ∧ p ≠ .none ∧ D j p t ∧
    Pass tt j p s w ∧ a = t + w) ∨
  ((∀ jr, ¬ TakesOver ts j s jr) ∧ PrevOf ts j s .none ∧ earliestDepTime ts.paths tt j s = .ok a)

/-- reservation time added at the stations of `add_swithes_at_s` -/
def ExtraRes (s : Val) (r : ℚ) : Prop :=
  ((∃ l, ts.addSwithes = some l ∧ s ∈ l) ∧ Res tt r) ∨
  ((¬ ∃ l, ts.addSwithes = some l ∧ s ∈ l) ∧ r = 0)

/-- what the station-track rule demands about `j` leaving `s` in favour of `jp`: if `j` goes on
under its own number and is first, `jp` arrives after `j` has left; if `j` is continued by another
train, that train has the same precedence -/
def TrackOne (s j jp : Val) : Prop :=
  (∀ jrr, ContinuedBy ts j s jrr → (F3 jp j s ↔ F3 jp jrr s)) ∧
  ((∀ jrr, ¬ ContinuedBy ts j s jrr) → F3 j jp s → ∀ t a r, D j s t → Arrives ts tt D jp s a →
    ExtraRes ts tt s r → t + r ≤ a)

/-- both trains come from `sp`, in one group of `Jd[sp][s]` -/
def SameGroupJd (j jp sp s : Val) : Prop :=
  ∃ d gs, Dict.get? ts.Jd sp = some d ∧ Dict.get? d s = some gs ∧ ∃ g ∈ gs, j ∈ g ∧ jp ∈ g ∧ j ≠ jp

/-- the trains may overtake on the way to `s`: they come from different stations, or on different
tracks -/
def MayOvertake (j jp s : Val) : Prop :=
  ts.Jd ≠ [] ∧ ∃ p pp, PrevOf ts j s p ∧ PrevOf ts jp s pp ∧ p ≠ .none ∧ pp ≠ .none ∧
    (p ≠ pp ∨ ¬ SameGroupJd ts j jp p s)

/-- both trains pass the same switches when entering `s` -/
def EnterTogether (j jp s : Val) : Prop :=
  ∃ l, Dict.get? ts.Jswitch s = some l ∧
    ∃ e ∈ l, Dict.get? e j = some "in" ∧ Dict.get? e jp = some "in"

end

/-- moment at which a train passes the switches of `s`, and the station it departed from -/
def SwitchMoment (ts : TrainSets) (tt : Timetable) (D : Val → Val → ℚ → Prop) (s j : Val)
    (place : String) (p : Val) (m : ℚ) : Prop :=
  (place = "out" ∧ p = s ∧ D j s m) ∨
  (place = "in" ∧ PrevOf ts j s p ∧ ∃ t w, D j p t ∧ Pass tt j p s w ∧ m = t + w)

/-- which of two trains passes the switches of `s` first; `p`, `pp` are the stations they departed
from -/
def SwitchFirst (ts : TrainSets) (F3 : Val → Val → Val → Prop) (F4 : Val → Val → Val → Val → Prop)
    (FI : Val → Val → Val → Prop) (s j p jp pp : Val) : Prop :=
  (p = pp ∧ p ≠ s ∧ MayOvertake ts j jp s ∧ FI j jp s) ∨
  (p = pp ∧ (p = s ∨ ¬ MayOvertake ts j jp s) ∧ F3 j jp p) ∨
  (p ≠ pp ∧ (s = p ∨ s = pp) ∧ F4 j jp p pp) ∨
  (p ≠ pp ∧ s ≠ p ∧ s ≠ pp ∧ FI j jp s)

/-- two trains of different rolling stock pass common switches at least the reservation time
apart -/
def SwitchRule (ts : TrainSets) (tt : Timetable) (D : Val → Val → ℚ → Prop)
    (F3 : Val → Val → Val → Prop) (F4 : Val → Val → Val → Val → Prop)
    (FI : Val → Val → Val → Prop) : Prop :=
  ∀ e ∈ ts.Jswitch, ∀ pair ∈ e.2, ∀ j a jp b, pair = [(j, a), (jp, b)] → ¬ SameStock ts j jp →
    ∀ p m pp mp r, SwitchMoment ts tt D e.1 j a p m → SwitchMoment ts tt D e.1 jp b pp mp →
      Res tt r →
      (SwitchFirst ts F3 F4 FI e.1 j p jp pp → m + r ≤ mp) ∧
      (SwitchFirst ts F3 F4 FI e.1 jp pp j p → mp + r ≤ m)

/-- the train is exempt from the station-track rule at `s`: `s in skip_station[j]` as the code
tests it, i.e. the name of `s` is contained in the name of the skipped station -/
def TrackExempt (ts : TrainSets) (s j : Val) : Prop :=
  ∃ d n m, ts.skipStation = some d ∧ Dict.get? d j = some (.str n) ∧ s = .str m ∧
    m.toList <:+: n.toList

/-- orders that the code couples: trains that cannot overtake on the way from `sp` to `s`, if both
precedences are stored in this orientation; or the order on entering and the order on leaving `s` -/
def OrderCoupling (ts : TrainSets) (y : OrderVars) (F3 : Val → Val → Val → Prop)
    (FI : Val → Val → Val → Prop) (s j jp : Val) : Prop :=
  ∀ sp d, PrevOf ts j s sp → Dict.get? ts.Jd sp = some d → Dict.get? d s ≠ .none →
    (∀ gs, Dict.get? ts.Jtrack s = some gs → ∃ g ∈ gs, j ∈ g ∧ jp ∈ g ∧ j ≠ jp) →
    (¬ MayOvertake ts j jp s → (∃ v, at4 y j jp oneStation s = .ok v) →
      (∃ v, at4 y j jp oneStation sp = .ok v) → (F3 j jp s ↔ F3 j jp sp)) ∧
    (MayOvertake ts j jp s → EnterTogether ts j jp s → (FI j jp s ↔ F3 j jp s))

/-- station-track rule as the code imposes it -/
def TrackRule (ts : TrainSets) (tt : Timetable) (D : Val → Val → ℚ → Prop) (y : OrderVars)
    (F3 : Val → Val → Val → Prop) (FI : Val → Val → Val → Prop) : Prop :=
  ∀ e ∈ ts.Jtrack, ∀ g ∈ e.2, ∀ j jp, [j, jp].Sublist g → ¬ SameStock ts j jp →
    (¬ TrackExempt ts e.1 jp →
      OrderCoupling ts y F3 FI e.1 j jp ∧ TrackOne ts tt D F3 e.1 jp j) ∧
    (¬ TrackExempt ts e.1 j → TrackOne ts tt D F3 e.1 j jp)

/-- all dispatching rules -/
structure AllRules (ts : TrainSets) (tt : Timetable) (D : Val → Val → ℚ → Prop) (y : OrderVars)
    (F3 : Val → Val → Val → Prop) (F4 : Val → Val → Val → Val → Prop)
    (FI : Val → Val → Val → Prop) : Prop where
  headway : HeadwayRule ts tt D F3
  stay : StayRule ts tt D
  singleLine : SingleLineRule ts tt D F4
  track : TrackRule ts tt D y F3 FI
  circulation : CirculationRule ts tt D
  switch : SwitchRule ts tt D F3 F4 FI

/-- well-formed train sets: no train is listed twice in a group or opposed to itself, switch places
are `"in"` or `"out"` -/
structure WellFormed (ts : TrainSets) : Prop where
  jd : ∀ e ∈ ts.Jd, ∀ e2 ∈ e.2, ∀ g ∈ e2.2, g.Nodup
  jtrack : ∀ e ∈ ts.Jtrack, ∀ g ∈ e.2, g.Nodup
  josingle : ∀ e ∈ ts.Josingle, ∀ p ∈ e.2, p.1 ≠ p.2
  jswitch : ∀ e ∈ ts.Jswitch, ∀ pair ∈ e.2, (Dict.keys pair).Nodup ∧
    ∀ x ∈ pair, x.2 = "in" ∨ x.2 = "out"

end Verif
