import Verif.Proofs.Loops
import Verif.Model.Linear

/-!
# Lemmas about the nested dictionaries of variables
-/

namespace Verif

/-! ## Generic level lemma -/

section level
variable {V W X : Type} [DecidableEq X]

theorem updLevel_find {upd : V → Py V} {inner : V} {F : V → X → Option W} {x0 : X} {w : W}
    (hupd : ∀ v v', upd v = .ok v' → ∀ x, F v' x = if x = x0 then some w else F v x)
    (hinner : ∀ x, F inner x = if x = x0 then some w else .none)
    {d d' : Dict Val V} {k : Val} (h : updLevel upd inner d k = .ok d') (k' : Val) (x : X) :
    ((Dict.get? d' k').bind fun v => F v x)
      = if k' = k ∧ x = x0 then some w else (Dict.get? d k').bind fun v => F v x := by
  unfold updLevel at h
  split at h
  · rename_i v hv
    split at h
    · rename_i v' hv'
      cases h
      rw [Dict.get?_set]
      by_cases hk : k' = k
      · subst hk
        simp only [if_true, Option.bind_some, true_and, hv]
        exact hupd v v' hv' x
      · simp [hk]
    · cases h
  · rename_i hn
    cases h
    rw [Dict.get?_append]
    by_cases hk : k' = k
    · subst hk
      simp only [hn, Option.none_or, Dict.get?, if_true, Option.bind_some, true_and, Option.bind_none]
      exact hinner x
    · have : Dict.get? [(k, inner)] k' = .none := by simp [Dict.get?, Ne.symm hk]
      simp [hk, this]

omit [DecidableEq X] in
theorem updLevel_ok {upd : V → Py V} {inner : V} {F : V → X → Option W} {x0 : X}
    (hupd : ∀ v, F v x0 = .none → ∃ v', upd v = .ok v')
    {d : Dict Val V} {k : Val} (h : ((Dict.get? d k).bind fun v => F v x0) = .none) :
    ∃ d', updLevel upd inner d k = .ok d' := by
  unfold updLevel
  split
  · rename_i v hv
    rw [hv] at h
    obtain ⟨v', hv'⟩ := hupd v h
    rw [hv']; exact ⟨_, rfl⟩
  · exact ⟨_, rfl⟩

omit [DecidableEq X] in
theorem updLevel_err {upd : V → Py V} {inner : V} {F : V → X → Option W} {x0 : X}
    (hupd : ∀ v, F v x0 ≠ .none → upd v = .error .attributeError)
    {d : Dict Val V} {k : Val} (h : ((Dict.get? d k).bind fun v => F v x0) ≠ .none) :
    updLevel upd inner d k = .error .attributeError := by
  unfold updLevel
  split
  · rename_i v hv
    rw [hv] at h
    rw [hupd v h]
  · rename_i hv; rw [hv] at h; exact absurd rfl h

end level

/-! ## Leaf level -/

theorem updLeafLevel_find {v : LpVar} {d d' : Dict Val LpVar} {k : Val}
    (h : updLevel updLeaf v d k = .ok d') (k' : Val) :
    Dict.get? d' k' = if k' = k then some v else Dict.get? d k' := by
  unfold updLevel at h
  split at h
  · simp [updLeaf] at h
  · rename_i hn
    cases h
    rw [Dict.get?_append]
    by_cases hk : k' = k
    · subst hk; simp [hn, Dict.get?]
    · simp [hk, Dict.get?, Ne.symm hk]

theorem updLeafLevel_ok {v : LpVar} {d : Dict Val LpVar} {k : Val}
    (h : Dict.get? d k = .none) : ∃ d', updLevel updLeaf v d k = .ok d' := by
  unfold updLevel; rw [h]; exact ⟨_, rfl⟩

theorem updLeafLevel_err {v : LpVar} {d : Dict Val LpVar} {k : Val}
    (h : Dict.get? d k ≠ .none) : updLevel updLeaf v d k = .error .attributeError := by
  unfold updLevel
  split
  · simp [updLeaf]
  · rename_i hn; exact absurd hn h

/-! ## Two levels: delay variables -/

/-- the variable stored under `d[j][s]`, if any -/
def find2 (d : DelayVars) (j s : Val) : Option LpVar :=
  (Dict.get? d j).bind fun d1 => Dict.get? d1 s

theorem delayAt_ok {d : DelayVars} {j s : Val} {v : LpVar} :
    delayAt d j s = .ok v ↔ find2 d j s = some v := by
  unfold delayAt find2 Dict.at!
  cases h : Dict.get? d j with
  | none => simp [bind, Except.bind]
  | some d1 =>
    simp only [bind, Except.bind, Option.bind_some]
    cases Dict.get? d1 s <;> simp

theorem find2_upd2 {d d' : DelayVars} {j s : Val} {v : LpVar} (h : upd2 d j s v = .ok d')
    (j' s' : Val) : find2 d' j' s' = if j' = j ∧ s' = s then some v else find2 d j' s' :=
  updLevel_find (F := fun d1 x => Dict.get? d1 x) (x0 := s) (w := v)
    (fun _ _ h x => updLeafLevel_find h x) (fun x => by simp [Dict.get?, eq_comm]) h j' s'

theorem upd2_ok {d : DelayVars} {j s : Val} {v : LpVar} (h : find2 d j s = .none) :
    ∃ d', upd2 d j s v = .ok d' :=
  updLevel_ok (F := fun d1 x => Dict.get? d1 x) (x0 := s) (fun _ h => updLeafLevel_ok h) h

theorem upd2_err {d : DelayVars} {j s : Val} {v : LpVar} (h : find2 d j s ≠ .none) :
    upd2 d j s v = .error .attributeError :=
  updLevel_err (F := fun d1 x => Dict.get? d1 x) (x0 := s) (fun _ h => updLeafLevel_err h) h

/-! ## Four levels: order variables -/

theorem at4_ok {y : OrderVars} {a b c d : Val} {v : LpVar} :
    at4 y a b c d = .ok v ↔ find4 y a b c d = some v := by
  unfold at4 find4 Dict.at!
  cases Dict.get? y a with
  | none => simp [bind, Except.bind]
  | some y1 =>
    simp only [bind, Except.bind, Option.bind_some]
    cases Dict.get? y1 b with
    | none => simp
    | some y2 =>
      simp only [Option.bind_some]
      cases Dict.get? y2 c with
      | none => simp
      | some y3 =>
        simp only [Option.bind_some]
        cases Dict.get? y3 d <;> simp

theorem check4_iff {y : OrderVars} {a b c d : Val} :
    checkOrderVar4arg y a b c d = true ↔ find4 y a b c d ≠ .none := by
  unfold checkOrderVar4arg find4 Dict.has
  cases Dict.get? y a with
  | none => simp
  | some y1 =>
    simp only [Option.bind_some]
    cases Dict.get? y1 b with
    | none => simp
    | some y2 =>
      simp only [Option.bind_some]
      cases Dict.get? y2 c with
      | none => simp
      | some y3 =>
        simp only [Option.bind_some]
        cases Dict.get? y3 d <;> simp

/-- three inner levels of `find4` -/
def find3 (y1 : Dict Val (Dict Val (Dict Val LpVar))) (p : Val × Val × Val) : Option LpVar :=
  (Dict.get? y1 p.1).bind fun y2 => (Dict.get? y2 p.2.1).bind fun y3 => Dict.get? y3 p.2.2

theorem find4_upd4 {y y' : OrderVars} {a b c d : Val} {v : LpVar} (h : upd4 y a b c d v = .ok y')
    (a' b' c' d' : Val) :
    find4 y' a' b' c' d'
      = if a' = a ∧ b' = b ∧ c' = c ∧ d' = d then some v else find4 y a' b' c' d' := by
  have l2 : ∀ (y2 y2' : Dict Val (Dict Val LpVar)),
      updLevel (fun d3 => updLevel updLeaf v d3 d) [(d, v)] y2 c = .ok y2' → ∀ p : Val × Val,
      ((Dict.get? y2' p.1).bind fun y3 => Dict.get? y3 p.2)
        = if p = (c, d) then some v else (Dict.get? y2 p.1).bind fun y3 => Dict.get? y3 p.2 := by
    intro y2 y2' h2 p
    have := updLevel_find (F := fun d1 x => Dict.get? d1 x) (x0 := d) (w := v)
      (fun _ _ h x => updLeafLevel_find h x) (fun x => by simp [Dict.get?, eq_comm]) h2 p.1 p.2
    rw [this]; simp [Prod.ext_iff]
  have l3 : ∀ (y1 y1' : Dict Val (Dict Val (Dict Val LpVar))),
      updLevel (fun d2 => updLevel (fun d3 => updLevel updLeaf v d3 d) [(d, v)] d2 c)
        [(c, [(d, v)])] y1 b = .ok y1' → ∀ p : Val × Val × Val,
      find3 y1' p = if p = (b, c, d) then some v else find3 y1 p := by
    intro y1 y1' h1 p
    have := updLevel_find
      (F := fun (y2 : Dict Val (Dict Val LpVar)) (x : Val × Val) =>
        (Dict.get? y2 x.1).bind fun y3 => Dict.get? y3 x.2)
      (x0 := (c, d)) (w := v) l2
      (fun x => by
        by_cases hc : c = x.1 <;> by_cases hd : d = x.2 <;>
          simp [Dict.get?, Prod.ext_iff, hc, hd, eq_comm]) h1 p.1 p.2
    unfold find3; rw [this]; simp [Prod.ext_iff]
  have := updLevel_find (F := find3) (x0 := (b, c, d)) (w := v) l3
    (fun x => by
      by_cases hb : b = x.1 <;> by_cases hc : c = x.2.1 <;> by_cases hd : d = x.2.2 <;>
        simp [find3, Dict.get?, Prod.ext_iff, hb, hc, hd, eq_comm]) h a' (b', c', d')
  simpa [find3, find4, Prod.ext_iff] using this

theorem upd4_ok {y : OrderVars} {a b c d : Val} {v : LpVar} (h : find4 y a b c d = .none) :
    ∃ y', upd4 y a b c d v = .ok y' := by
  refine updLevel_ok (F := find3) (x0 := (b, c, d)) (fun y1 h1 => ?_) h
  refine updLevel_ok (F := fun (y2 : Dict Val (Dict Val LpVar)) (x : Val × Val) =>
    (Dict.get? y2 x.1).bind fun y3 => Dict.get? y3 x.2) (x0 := (c, d)) (fun y2 h2 => ?_) h1
  exact updLevel_ok (F := fun d1 x => Dict.get? d1 x) (x0 := d) (fun _ h => updLeafLevel_ok h) h2

/-! ## The update functions -/

/-- `update_y3`, `update_y4`, `update_y4_in` in one form: create `y[a][b][c][d]` unless it or the
other orientation `y[a'][b'][c'][d']` exists -/
def addOrder (y : OrderVars) (p q : Val × Val × Val × Val) (v : LpVar) : Py OrderVars :=
  if checkOrderVar4arg y p.1 p.2.1 p.2.2.1 p.2.2.2 || checkOrderVar4arg y q.1 q.2.1 q.2.2.1 q.2.2.2
  then .ok y else upd4 y p.1 p.2.1 p.2.2.1 p.2.2.2 v

theorem updateY3_eq (y : OrderVars) (j jp s : Val) :
    updateY3 y j jp s = addOrder y (j, jp, oneStation, s) (jp, j, oneStation, s) (yVar j jp s) := rfl

theorem updateY4_eq (y : OrderVars) (j jp s sp : Val) :
    updateY4 y j jp s sp = addOrder y (j, jp, s, sp) (jp, j, sp, s) (zVar j jp s sp) := rfl

theorem updateY4in_eq (y : OrderVars) (a j jp s : Val) :
    updateY4in y a j jp s = addOrder y (a, j, jp, s) (a, jp, j, s) (zVar a j jp s) := rfl

/-- lookup with the path as a tuple -/
def findP (y : OrderVars) (p : Val × Val × Val × Val) : Option LpVar :=
  find4 y p.1 p.2.1 p.2.2.1 p.2.2.2

theorem addOrder_spec (y : OrderVars) (p q : Val × Val × Val × Val) (v : LpVar) :
    ∃ y', addOrder y p q v = .ok y' ∧
      ((y' = y ∧ (findP y p ≠ .none ∨ findP y q ≠ .none)) ∨
       (findP y p = .none ∧ findP y q = .none ∧
         ∀ r, findP y' r = if r = p then some v else findP y r)) := by
  unfold addOrder
  split
  · rename_i h
    simp only [Bool.or_eq_true, check4_iff] at h
    exact ⟨y, rfl, .inl ⟨rfl, h⟩⟩
  · rename_i h
    simp only [Bool.or_eq_true, check4_iff, not_or, not_not] at h
    obtain ⟨y', hy'⟩ := upd4_ok (v := v) h.1
    refine ⟨y', hy', .inr ⟨h.1, h.2, fun r => ?_⟩⟩
    have := find4_upd4 hy' r.1 r.2.1 r.2.2.1 r.2.2.2
    unfold findP; rw [this]; simp [Prod.ext_iff]

/-- a variable that is present stays present, and is not changed -/
theorem addOrder_mono {y y' : OrderVars} {p q : Val × Val × Val × Val} {v : LpVar}
    (h : addOrder y p q v = .ok y') {r : Val × Val × Val × Val} {w : LpVar}
    (hr : findP y r = some w) : findP y' r = some w := by
  obtain ⟨y'', h1, h2⟩ := addOrder_spec y p q v
  rw [h] at h1; cases h1
  rcases h2 with ⟨rfl, _⟩ | ⟨hp, _, hall⟩
  · exact hr
  · rw [hall]; split
    · rename_i heq; subst heq; rw [hp] at hr; cases hr
    · exact hr

/-- after the update one of the orientations is present -/
theorem addOrder_has {y y' : OrderVars} {p q : Val × Val × Val × Val} {v : LpVar}
    (h : addOrder y p q v = .ok y') : findP y' p ≠ .none ∨ findP y' q ≠ .none := by
  obtain ⟨y'', h1, h2⟩ := addOrder_spec y p q v
  rw [h] at h1; cases h1
  rcases h2 with ⟨rfl, h⟩ | ⟨_, _, hall⟩
  · exact h
  · left; rw [hall]; simp

/-! ## Loops preserve invariants -/

end Verif
