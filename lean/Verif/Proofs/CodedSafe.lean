import Verif.Proofs.Coded
import Verif.Props.SafePlan

/-!
# Checks of `SafeSheet` on coded sheets
-/

namespace Verif

namespace CodedNet

variable (N : CodedNet)

/-- the section ends in the station with position `j` -/
def endsAt (c : CodedSection) (j : Nat) : Bool :=
  match (c.rows.map Prod.fst).getLast? with
  | some b => match N.stIx b with
    | some i => Nat.beq i j
    | none => false
  | none => false

/-- a run: station, next station, blocks between, does the train end there -/
abbrev EndRun := Nat × Nat × List Nat × Bool

/-- the runs are against each other -/
def against (a b : EndRun) : Bool :=
  Nat.beq a.1 b.2.1 && Nat.beq a.2.1 b.1 && !a.2.2.1.isEmpty && decide (a.2.2.1 = b.2.2.1.reverse)

/-- the train with run `b` goes on, see `GoesOn` -/
def goesOn (E : List EndRun) (a b : EndRun) : Bool :=
  !b.2.2.2 && (Nat.ble a.1 a.2.1 || E.all fun c => !(Nat.beq c.1 a.1 && Nat.beq c.2.1 a.2.1) ||
    !(E.any fun d => against c d) || c.2.2.2)

/-- of two trains against each other one goes on -/
def oppositeOK (E : List EndRun) : Bool :=
  E.all fun a => E.all fun b => !against a b || goesOn E a b || goesOn E b a

/-- no two rows of the path table are for the same blocks -/
def pairsOK : List (Nat × Nat × PathRow) → Bool
  | [] => true
  | x :: l => l.all (fun y => !joins y x.1 x.2.1) && pairsOK l

/-- the time is not negative -/
def timeOK (v : Option ℚ) : Bool := match v with
  | some v => decide (0 ≤ v)
  | none => true

/-- the conditions on the path table -/
structure TableOK : Prop where
  pairs : pairsOK N.table = true
  times : ∀ x ∈ N.table, (timeOK x.2.2.rAB && timeOK x.2.2.rBA && timeOK x.2.2.icAB &&
    timeOK x.2.2.icBA) = true

/-- the conditions on the runs -/
structure EndsOK (E : List EndRun) (cs : List CodedSection) : Prop where
  runs : ∀ c ∈ cs, ((N.runs none (c.rows.map Prod.fst)).all fun x => E.any fun y =>
    Nat.beq x.1 y.1 && Nat.beq x.2.1 y.2.1 && decide (x.2.2 = y.2.2.1) &&
      (y.2.2.2 == N.endsAt c x.2.1)) = true
  opposite : oppositeOK E = true

variable {N} {good : List (Nat × Nat)} {R : List (Nat × Nat × List Nat)} {cs : List CodedSection}
  {E : List EndRun}

theorem ends_coded (W : N.NetOK good) {c : CodedSection} {j : Nat} {e : String × List Nat}
    (he : N.stations[j]? = some e) :
    SectionEnds N.stationTable (N.sec c) e.1 ↔ N.endsAt c j = true := by
  have hl : ((N.sec c).rows.map (·.path)).getLast? =
      (c.rows.map Prod.fst).getLast?.map (nameOf N.names) := by
    rw [← List.getLast?_map]
    congr 1
    simp only [CodedNet.sec, List.map_map]
    rfl
  unfold SectionEnds endsAt
  rw [hl]
  cases h : (c.rows.map Prod.fst).getLast? with
  | none => simp
  | some b =>
    simp only [Option.map_some, Option.some.injEq, exists_eq_left']
    constructor
    · intro hb
      obtain ⟨i, e', h1, h2, h3⟩ := stIx_belongs W hb
      rw [h3]
      simp only [Nat.beq_eq]
      exact station_pos W h1 he h2
    · intro hb
      cases h3 : N.stIx b with
      | none => rw [h3] at hb; simp at hb
      | some i =>
        rw [h3] at hb
        simp only [Nat.beq_eq] at hb
        subst hb
        obtain ⟨e', h4, h5⟩ := stIx_spec h3
        rw [he] at h4
        cases h4
        exact (belongs_coded W.names).2 ⟨e, List.mem_of_getElem? he, rfl, h5⟩

theorem run_ends (W : N.NetOK good) (H : N.EndsOK E cs) {c : CodedSection} (hc : c ∈ cs)
    {x x2 : String} {m : List RawRow} (h : LeadsTo N.stationTable (N.sec c).rows x x2 m) :
    ∃ i j e e' l, (i, j, l, N.endsAt c j) ∈ E ∧ N.stations[i]? = some e ∧ e.1 = x ∧
      N.stations[j]? = some e' ∧ e'.1 = x2 ∧ m.map (·.path) = l.map (nameOf N.names) := by
  obtain ⟨pre, r1, r2, post, e, h1, h2, h3⟩ := h
  rw [List.append_assoc, List.cons_append] at e
  obtain ⟨l1, l2, e1, -, q1⟩ := List.map_eq_append_iff.1 e
  obtain ⟨y1, l3, rfl, rfl, q2⟩ := List.map_eq_cons_iff.1 q1
  obtain ⟨lm, l4, rfl, rfl, q3⟩ := List.map_eq_append_iff.1 q2
  obtain ⟨y2, l5, rfl, rfl, -⟩ := List.map_eq_cons_iff.1 q3
  obtain ⟨i, ei, hi, hxi, si⟩ := stIx_belongs W (b := y1.1) h1
  obtain ⟨j, ej, hj, hxj, sj⟩ := stIx_belongs W (b := y2.1) h2
  have hm : ∀ b ∈ lm.map Prod.fst, N.stIx b = none := by
    intro b hb
    obtain ⟨y, hy, rfl⟩ := List.mem_map.1 hb
    rw [stIx_none, ← Bool.not_eq_true, ← inStation_coded W.names]
    exact h3 (N.row y) (List.mem_map.2 ⟨y, hy, rfl⟩)
  have hr := mem_runs (pre := l1.map Prod.fst) (post := l5.map Prod.fst) si hm sj none
  have hc' := H.runs c hc
  rw [List.all_eq_true] at hc'
  have := hc' (i, j, lm.map Prod.fst) (by rw [e1]; simpa using hr)
  simp only [List.any_eq_true, Bool.and_eq_true, Nat.beq_eq, decide_eq_true_eq, beq_iff_eq] at this
  obtain ⟨⟨i', j', l', f⟩, hy, ⟨⟨q1, q2⟩, q3⟩, q4⟩ := this
  simp only at q1 q2 q3 q4
  subst q1 q2 q3 q4
  exact ⟨i, j, ei, ej, _, hy, hi, hxi, hj, hxj, by simp only [List.map_map]; rfl⟩

/-- opposite sections, by numbers -/
theorem opposite_coded (W : N.NetOK good) (H : N.EndsOK E cs) {c c' : CodedSection} (hc : c ∈ cs)
    (hc' : c' ∈ cs) {x x2 : String}
    (h : SectionsOpposite N.stationTable (N.sec c) (N.sec c') x x2) :
    ∃ i j e e' l l', N.stations[i]? = some e ∧ e.1 = x ∧ N.stations[j]? = some e' ∧ e'.1 = x2 ∧
      (i, j, l, N.endsAt c j) ∈ E ∧ (j, i, l', N.endsAt c' i) ∈ E ∧
      against (i, j, l, N.endsAt c j) (j, i, l', N.endsAt c' i) = true := by
  obtain ⟨m, m', h1, h2, hne, hs⟩ := h
  obtain ⟨i, j, e, e', l, hE, q1, rfl, q2, rfl, q3⟩ := run_ends W H hc h1
  obtain ⟨j', i', f', f, l', hE', p1, p1', p2, p2', p3⟩ := run_ends W H hc' h2
  cases station_pos W p1 q2 p1'
  cases station_pos W p2 q1 p2'
  refine ⟨i, j, e, e', l, l', q1, rfl, q2, rfl, hE, hE', ?_⟩
  have hl : l = l'.reverse := by
    rw [q3, p3, ← List.map_reverse] at hs
    exact List.map_injective_iff.2 W.names.inj hs
  have hl0 : l ≠ [] := by
    rintro rfl
    exact hne (List.map_eq_nil_iff.1 q3)
  unfold against
  simp only [Bool.and_eq_true, Nat.beq_eq, Bool.not_eq_true', List.isEmpty_eq_false_iff,
    decide_eq_true_eq]
  exact ⟨⟨by simp, hl0⟩, hl⟩

theorem before_coded (W : N.NetOK good) {i j : Nat} {e e' : String × List Nat}
    (hi : N.stations[i]? = some e) (hj : N.stations[j]? = some e')
    (h : Before (Dict.keys N.stationTable) e'.1 e.1) : j < i := by
  obtain ⟨l1, l2, l3, h⟩ := h
  have hk : Dict.keys N.stationTable = N.stations.map Prod.fst := by
    simp [Dict.keys, CodedNet.stationTable]
  rw [hk, List.append_assoc, List.cons_append] at h
  have g1 : (N.stations.map Prod.fst)[l1.length]? = some e'.1 := by rw [h]; simp
  have g2 : (N.stations.map Prod.fst)[l1.length + (l2.length + 1)]? = some e.1 := by
    rw [h, List.getElem?_append_right (by omega), Nat.add_sub_cancel_left,
      List.getElem?_cons_succ]
    simp
  rw [List.getElem?_map] at g1 g2
  obtain ⟨f1, k1, k2⟩ := Option.map_eq_some_iff.1 g1
  obtain ⟨f2, k3, k4⟩ := Option.map_eq_some_iff.1 g2
  have := station_pos W k1 hj k2
  have := station_pos W k3 hi k4
  omega

theorem goesOn_coded (W : N.NetOK good) (H : N.EndsOK E cs) {c' : CodedSection} {i j : Nat}
    {e e' : String × List Nat} {l l' : List Nat} {f : Bool}
    (hi : N.stations[i]? = some e) (hj : N.stations[j]? = some e')
    (h : goesOn E (i, j, l, f) (j, i, l', N.endsAt c' i) = true) :
    SectionGoesOn (cs.map N.sec) N.stationTable e.1 e'.1 (N.sec c') := by
  unfold goesOn at h
  simp only [Bool.and_eq_true, Bool.not_eq_true', Bool.or_eq_true, Nat.ble_eq] at h
  refine ⟨fun h0 => ?_, ?_⟩
  · rw [ends_coded W hi, h.1] at h0
    cases h0
  · rcases h.2 with h2 | h2
    · exact .inl fun hb => by
        have := before_coded W hi hj hb
        omega
    · right
      intro s hs s' hs' ho
      obtain ⟨d, hd, rfl⟩ := List.mem_map.1 hs
      obtain ⟨d', hd', rfl⟩ := List.mem_map.1 hs'
      obtain ⟨i2, j2, e2, e2', k, k', q1, q2, q3, q4, q5, q6, q7⟩ := opposite_coded W H hd hd' ho
      cases station_pos W q1 hi q2
      cases station_pos W q3 hj q4
      rw [ends_coded W hj]
      rw [List.all_eq_true] at h2
      have := h2 _ q5
      simp only [Bool.or_eq_true, Bool.not_eq_true', Bool.and_eq_false_iff] at this
      rcases this with (this | this) | this
      · rcases this with this | this
        · rw [← Bool.not_eq_true, Nat.beq_eq] at this
          exact absurd rfl this
        · rw [← Bool.not_eq_true, Nat.beq_eq] at this
          exact absurd rfl this
      · rw [List.any_eq_false] at this
        exact absurd q7 (this _ q6)
      · exact this

theorem pairsOK_same {T : List (Nat × Nat × PathRow)}
    (h : pairsOK T = true) : ∀ x ∈ T, ∀ y ∈ T, joins y x.1 x.2.1 = true → x = y := by
  induction T with
  | nil => intro x hx; cases hx
  | cons z l ih =>
    unfold pairsOK at h
    rw [Bool.and_eq_true, List.all_eq_true] at h
    intro x hx y hy hj
    have hsymm : ∀ {x y : Nat × Nat × PathRow}, joins y x.1 x.2.1 = true →
        joins x y.1 y.2.1 = true := by
      intro x y hj
      unfold joins at hj ⊢
      simp only [Bool.or_eq_true, Bool.and_eq_true, Nat.beq_eq] at hj ⊢
      omega
    rcases List.mem_cons.1 hx with rfl | hx2 <;> rcases List.mem_cons.1 hy with rfl | hy2
    · rfl
    · have := h.1 y hy2
      rw [hj] at this
      cases this
    · have := h.1 x hx2
      rw [hsymm hj] at this
      cases this
    · exact ih h.2 x hx2 y hy2 hj

theorem sameCells_coded (hn : BlockNames N.names) (T : N.TableOK) : SameCells N.pathTable := by
  intro row hr row' hr' a b hj hj'
  obtain ⟨x, hx, rfl⟩ := List.mem_map.1 hr
  obtain ⟨y, hy, rfl⟩ := List.mem_map.1 hr'
  have : x = y := by
    refine pairsOK_same T.pairs x hx y hy ?_
    rw [joins_iff hn]
    unfold Joins at hj hj' ⊢
    simp only at hj hj' ⊢
    rcases hj with ⟨rfl, rfl⟩ | ⟨rfl, rfl⟩
    · exact hj'
    · exact hj'.symm
  rw [this]

theorem timeOK_nonneg {v : ℚ} (h : timeOK (some v) = true) : 0 ≤ v := by
  simpa [timeOK] using h

/-- the checks imply `SafeSheet` -/
theorem safeSheet_of_checks (W : N.NetOK good) (T : N.TableOK) (H : N.EndsOK E cs) :
    SafeSheet (cs.map N.sec) N.stationTable N.pathTable where
  opposite := by
    intro s hs s' hs' x x2 ho
    obtain ⟨c, hc, rfl⟩ := List.mem_map.1 hs
    obtain ⟨c', hc', rfl⟩ := List.mem_map.1 hs'
    obtain ⟨i, j, e, e', l, l', q1, rfl, q3, rfl, q5, q6, q7⟩ := opposite_coded W H hc hc' ho
    have := H.opposite
    unfold oppositeOK at this
    rw [List.all_eq_true] at this
    have := this _ q5
    rw [List.all_eq_true] at this
    have := this _ q6
    simp only [q7, Bool.not_true, Bool.false_or, Bool.or_eq_true] at this
    exact this.imp (goesOn_coded W H q1 q3) (goesOn_coded W H q3 q1)
  cells := sameCells_coded W.names T
  times := by
    intro row hr v hv
    obtain ⟨x, hx, rfl⟩ := List.mem_map.1 hr
    have := T.times x hx
    simp only [Bool.and_eq_true] at this
    obtain ⟨⟨⟨h1, h2⟩, h3⟩, h4⟩ := this
    rcases hv with hv | hv | hv | hv <;> simp only at hv
    · rw [hv] at h1; exact timeOK_nonneg h1
    · rw [hv] at h2; exact timeOK_nonneg h2
    · rw [hv] at h3; exact timeOK_nonneg h3
    · rw [hv] at h4; exact timeOK_nonneg h4

end CodedNet

end Verif
