import Verif.Proofs.Families3

/-!
# The whole problem against the rules
-/

namespace Verif

theorem allHold_of_ok {σ : LpVar → ℚ} {m : Py (List Named)} {cs : List Named} (h : m = .ok cs) :
    (∀ c ∈ cs, c.2.Holds σ) ↔ AllHold σ m := by rw [h, allHold_ok]

/-- what a successful `create_linear_problem` consists of -/
structure Parts (ts : TrainSets) (tt : Timetable) (dmax : ℚ) (cat : Cat) (b : Built) : Prop where
  hdv : delayVariables ts dmax cat = .ok b.dv
  hy : orderVariables ts = .ok b.y
  hobj : objective tt b.dv ts dmax = .ok b.prob.objective
  o1 : Oks (minimalSpan tt b.dv b.y ts dmax)
  o2 : Oks (minimalStay tt b.dv ts)
  o3 : Oks (singleLine tt b.dv b.y ts dmax)
  o4 : Oks (trackOccupation tt b.dv b.y ts dmax)
  o5 : Oks (rollingStockCirc tt b.dv ts dmax)
  o6 : Oks (switchOccupation tt b.dv b.y ts dmax)
  sat : ∀ σ, Satisfies b.prob σ ↔
    AllHold σ (minimalSpan tt b.dv b.y ts dmax) ∧ AllHold σ (minimalStay tt b.dv ts) ∧
    AllHold σ (singleLine tt b.dv b.y ts dmax) ∧ AllHold σ (trackOccupation tt b.dv b.y ts dmax) ∧
    AllHold σ (rollingStockCirc tt b.dv ts dmax) ∧ AllHold σ (switchOccupation tt b.dv b.y ts dmax)

theorem parts {ts : TrainSets} {tt : Timetable} {dmax : ℚ} {cat : Cat} {b : Built}
    (h : buildProblem ts tt dmax cat = .ok b) : Parts ts tt dmax cat b := by
  unfold buildProblem at h
  obtain ⟨dv, hdv, h⟩ := bind_ok h
  obtain ⟨y, hy, h⟩ := bind_ok h
  obtain ⟨c1, h1, h⟩ := bind_ok h
  obtain ⟨c2, h2, h⟩ := bind_ok h
  obtain ⟨c3, h3, h⟩ := bind_ok h
  obtain ⟨c4, h4, h⟩ := bind_ok h
  obtain ⟨c5, h5, h⟩ := bind_ok h
  obtain ⟨c6, h6, h⟩ := bind_ok h
  obtain ⟨obj, hobj, h⟩ := bind_ok h
  obtain ⟨p, hp, h⟩ := bind_ok h
  cases h
  obtain ⟨_, hc, _⟩ := Problem.addAll_ok hp
  refine ⟨hdv, hy, hobj, ⟨c1, h1⟩, ⟨c2, h2⟩, ⟨c3, h3⟩, ⟨c4, h4⟩, ⟨c5, h5⟩, ⟨c6, h6⟩, fun σ => ?_⟩
  rw [← allHold_of_ok h1, ← allHold_of_ok h2, ← allHold_of_ok h3, ← allHold_of_ok h4,
    ← allHold_of_ok h5, ← allHold_of_ok h6]
  unfold Satisfies
  simp only [hc]
  simp only [Problem.empty, List.nil_append, List.forall_mem_map, List.forall_mem_append]
  tauto

section
variable {ts : TrainSets} {tt : Timetable} {dmax : ℚ} {cat : Cat} {dv : DelayVars} {y : OrderVars}
  {σ : LpVar → ℚ} (S : Setting ts dmax cat dv y σ)
include S

/-! ## Headway -/

omit S in
theorem span_parts (ho : Oks (minimalSpan tt dv y ts dmax)) :
    ∀ e ∈ ts.Jd, ∀ e2 ∈ e.2, ∀ g ∈ e2.2, ∀ p ∈ pairs g,
      Oks (minimalSpanConstrain e.1 e2.1 p.1 p.2 tt dv y ts dmax) ∧
      Oks (minimalSpanConstrain e.1 e2.1 p.2 p.1 tt dv y ts dmax) := by
  unfold minimalSpan at ho
  intro e he e2 he2 g hg p hp
  exact oks_append.1 (oks_collect.1 (oks_collect.1 (oks_collect.1 (oks_collect.1 ho e he) e2 he2)
    g hg) p hp)

omit S in
theorem span_allHold : AllHold σ (minimalSpan tt dv y ts dmax) ↔
    ∀ e ∈ ts.Jd, ∀ e2 ∈ e.2, ∀ g ∈ e2.2, ∀ p ∈ pairs g,
      AllHold σ (minimalSpanConstrain e.1 e2.1 p.1 p.2 tt dv y ts dmax) ∧
      AllHold σ (minimalSpanConstrain e.1 e2.1 p.2 p.1 tt dv y ts dmax) := by
  unfold minimalSpan
  simp only [allHold_collect, allHold_append]

theorem headway_sound (h : AllHold σ (minimalSpan tt dv y ts dmax)) :
    HeadwayRule ts tt (Departs ts tt dv σ) (First3 y σ) := by
  intro e he e2 he2 g hg j hj jp hjp hne
  have hk := span_allHold.1 h e he e2 he2 g hg
  have hjp' := S.hn.names.jd e he e2 he2 g hg jp hjp
  rcases pairs_of_mem hj hjp hne with hp | hp
  · exact (minimalSpanConstrain_iff S hjp' hne (hk _ hp).1.oks).1 (hk _ hp).1
  · exact (minimalSpanConstrain_iff S hjp' hne (hk _ hp).2.oks).1 (hk _ hp).2

theorem headway_complete (hw : WellFormed ts) (ho : Oks (minimalSpan tt dv y ts dmax))
    (h : HeadwayRule ts tt (Departs ts tt dv σ) (First3 y σ)) :
    AllHold σ (minimalSpan tt dv y ts dmax) := by
  rw [span_allHold]
  intro e he e2 he2 g hg p hp
  have hoo := span_parts ho e he e2 he2 g hg p hp
  obtain ⟨h1, h2⟩ := mem_pairs hp
  have hne := pairs_ne (hw.jd e he e2 he2 g hg) hp
  exact ⟨(minimalSpanConstrain_iff S (S.hn.names.jd e he e2 he2 g hg _ h2) hne hoo.1).2
      (h e he e2 he2 g hg _ h1 _ h2 hne),
    (minimalSpanConstrain_iff S (S.hn.names.jd e he e2 he2 g hg _ h1) (Ne.symm hne) hoo.2).2
      (h e he e2 he2 g hg _ h2 _ h1 (Ne.symm hne))⟩

/-! ## Minimal stay -/

omit S in
theorem stay_allHold (hp : ∀ j ∈ ts.J, (Dict.get? ts.paths j).isSome) :
    AllHold σ (minimalStay tt dv ts) ↔
    ∀ j ∈ ts.J, ∀ path, Dict.get? ts.paths j = some path → ∀ s ∈ path,
      AllHold σ (minimalStayConstrain j s tt dv ts) := by
  unfold minimalStay
  simp only [allHold_collect]
  refine forall₂_congr fun j hj => ?_
  obtain ⟨path, hpath⟩ := Option.isSome_iff_exists.1 (hp j hj)
  rw [Dict.at!_ok.2 hpath]
  simp only [bind, Except.bind, allHold_collect, hpath, Option.some.injEq, forall_eq']

omit S in
theorem stay_oks (ho : Oks (minimalStay tt dv ts)) :
    ∀ j ∈ ts.J, ∀ path, Dict.get? ts.paths j = some path → ∀ s ∈ path,
      Oks (minimalStayConstrain j s tt dv ts) := by
  unfold minimalStay at ho
  simp only [oks_collect] at ho
  intro j hj path hpath
  have := ho j hj
  rw [Dict.at!_ok.2 hpath] at this
  simpa only [bind, Except.bind, oks_collect] using this

omit S in
theorem prevOn_mem {path : List Val} {s p : Val} (h : PrevOn path s p) : s ∈ path := by
  rcases h with ⟨l, r, rfl, _⟩ | ⟨r, rfl, _⟩ <;> simp

omit S in
theorem stay_iff (hp : ∀ j ∈ ts.J, (Dict.get? ts.paths j).isSome)
    (ho : Oks (minimalStay tt dv ts)) :
    AllHold σ (minimalStay tt dv ts) ↔ StayRule ts tt (Departs ts tt dv σ) := by
  rw [stay_allHold hp]
  have hoo := stay_oks ho
  constructor
  · intro h j hj s p hprev
    obtain ⟨path, hpath, hpo⟩ := hprev
    have hs := prevOn_mem hpo
    exact (minimalStayConstrain_iff (hoo j hj path hpath s hs)).1 (h j hj path hpath s hs) p
      ⟨path, hpath, hpo⟩
  · intro h j hj path hpath s hs
    exact (minimalStayConstrain_iff (hoo j hj path hpath s hs)).2 (h j hj s)

/-! ## Single line -/

omit S in
theorem single_allHold : AllHold σ (singleLine tt dv y ts dmax) ↔
    ∀ e ∈ ts.Josingle, ∀ p ∈ e.2, ¬ SameStock ts p.1 p.2 →
      AllHold σ (singleLineConstrain e.1.1 e.1.2 p.1 p.2 tt dv y ts dmax) ∧
      AllHold σ (singleLineConstrain e.1.2 e.1.1 p.2 p.1 tt dv y ts dmax) := by
  unfold singleLine
  simp only [allHold_collect]
  refine forall₂_congr fun e _ => forall₂_congr fun p _ => ?_
  rw [← sameStock_iff]
  split
  · rename_i h; simp only [h, allHold_append, forall_const]
  · rename_i h; simp only [h, allHold_nil, false_implies, Bool.false_eq_true]

omit S in
theorem single_oks (ho : Oks (singleLine tt dv y ts dmax)) :
    ∀ e ∈ ts.Josingle, ∀ p ∈ e.2, ¬ SameStock ts p.1 p.2 →
      Oks (singleLineConstrain e.1.1 e.1.2 p.1 p.2 tt dv y ts dmax) ∧
      Oks (singleLineConstrain e.1.2 e.1.1 p.2 p.1 tt dv y ts dmax) := by
  unfold singleLine at ho
  simp only [oks_collect] at ho
  intro e he p hp hss
  have := ho e he p hp
  rw [if_pos (sameStock_iff.2 hss)] at this
  exact oks_append.1 this

/-- both constraints of a listed pair -/
theorem single_pair {e : (Val × Val) × List (Val × Val)} (he : e ∈ ts.Josingle) {p : Val × Val}
    (hp : p ∈ e.2) (hne : ¬ (p.1 = p.2 ∧ e.1.1 = e.1.2))
    (ho : Oks (singleLineConstrain e.1.1 e.1.2 p.1 p.2 tt dv y ts dmax) ∧
      Oks (singleLineConstrain e.1.2 e.1.1 p.2 p.1 tt dv y ts dmax)) :
    (AllHold σ (singleLineConstrain e.1.1 e.1.2 p.1 p.2 tt dv y ts dmax) ∧
      AllHold σ (singleLineConstrain e.1.2 e.1.1 p.2 p.1 tt dv y ts dmax)) ↔
    ((First4 y σ p.1 p.2 e.1.1 e.1.2 → ∀ t tp h, Departs ts tt dv σ p.1 e.1.1 t →
        Departs ts tt dv σ p.2 e.1.2 tp → Pass tt p.1 e.1.1 e.1.2 h → t + h ≤ tp) ∧
    (First4 y σ p.2 p.1 e.1.2 e.1.1 → ∀ t tp h, Departs ts tt dv σ p.1 e.1.1 t →
        Departs ts tt dv σ p.2 e.1.2 tp → Pass tt p.2 e.1.2 e.1.1 h → tp + h ≤ t)) := by
  obtain ⟨n1, n2, n3⟩ := S.hn.names.josingle e he
  rw [singleLineConstrain_iff S (n3 p hp).1 n1 hne ho.1,
    singleLineConstrain_iff S (n3 p hp).2 n2 (fun h => hne ⟨h.1.symm, h.2.symm⟩) ho.2, and_comm]
  refine and_congr_left fun _ => ⟨fun h a t tp w h1 h2 h3 => h a tp t w h2 h1 h3,
    fun h a t tp w h1 h2 h3 => h a tp t w h2 h1 h3⟩

theorem single_iff (hw : WellFormed ts) (ho : Oks (singleLine tt dv y ts dmax)) :
    AllHold σ (singleLine tt dv y ts dmax) ↔
      SingleLineRule ts tt (Departs ts tt dv σ) (First4 y σ) := by
  rw [single_allHold]
  unfold SingleLineRule
  refine forall₂_congr fun e he => forall₂_congr fun p hp => forall_congr' fun hss => ?_
  exact single_pair S he hp (fun h => hw.josingle e he p hp h.1) (single_oks ho e he p hp hss)

/-! ## Circulation -/

theorem circ_iff (ho : Oks (rollingStockCirc tt dv ts dmax)) :
    AllHold σ (rollingStockCirc tt dv ts dmax) ↔ CirculationRule ts tt (Departs ts tt dv σ) := by
  unfold rollingStockCirc at ho ⊢
  simp only [oks_collect] at ho
  simp only [allHold_collect]
  unfold CirculationRule
  exact forall₂_congr fun e he => forall₂_congr fun q hq => circBody_iff S (ho e he q hq)

/-! ## Station tracks -/

omit S in
theorem track_first {s j jp : Val} (ho : Oks (trackOccFirst s j jp tt dv y ts dmax)) :
    (AllHold σ (trackOccFirst s j jp tt dv y ts dmax) ↔ (¬ TrackExempt ts s jp →
      AllHold σ (keepTrainsOrder s j jp y ts) ∧ AllHold σ (trainsOrderAtS s jp j tt dv y ts dmax))) ∧
    (¬ TrackExempt ts s jp → Oks (keepTrainsOrder s j jp y ts) ∧
      Oks (trainsOrderAtS s jp j tt dv y ts dmax)) := by
  unfold trackOccFirst at *
  cases hk : trackSkip ts s jp with
  | error e => rw [hk] at ho; obtain ⟨_, h⟩ := ho; cases h
  | ok b =>
    have := trackSkip_iff hk
    rw [hk] at ho
    simp only [bind, Except.bind] at ho ⊢
    cases b with
    | true =>
      have h : TrackExempt ts s jp := this.1 rfl
      simp [h, allHold_nil]
    | false =>
      have h : ¬ TrackExempt ts s jp := fun h => by simpa using this.2 h
      simp only [Bool.not_false, if_true] at ho ⊢
      have e1 := allHold_append (σ := σ) (m := keepTrainsOrder s j jp y ts)
        (n := trainsOrderAtS s jp j tt dv y ts dmax)
      have e2 := oks_append (m := keepTrainsOrder s j jp y ts)
        (n := trainsOrderAtS s jp j tt dv y ts dmax)
      simp only [h, not_false_eq_true, forall_const]
      exact ⟨e1, e2.1 ho⟩

omit S in
theorem track_second {s j jp : Val} (ho : Oks (trackOccSecond s j jp tt dv y ts dmax)) :
    (AllHold σ (trackOccSecond s j jp tt dv y ts dmax) ↔ (¬ TrackExempt ts s j →
      AllHold σ (trainsOrderAtS s j jp tt dv y ts dmax))) ∧
    (¬ TrackExempt ts s j → Oks (trainsOrderAtS s j jp tt dv y ts dmax)) := by
  unfold trackOccSecond at *
  cases hk : trackSkip ts s j with
  | error e => rw [hk] at ho; obtain ⟨_, h⟩ := ho; cases h
  | ok b =>
    have := trackSkip_iff hk
    rw [hk] at ho
    simp only [bind, Except.bind] at ho ⊢
    cases b with
    | true =>
      have h : TrackExempt ts s j := this.1 rfl
      simp [h, allHold_nil]
    | false =>
      have h : ¬ TrackExempt ts s j := fun h => by simpa using this.2 h
      simp only [Bool.not_false, if_true] at ho ⊢
      simp [h, ho]

omit S in
theorem track_allHold : AllHold σ (trackOccupation tt dv y ts dmax) ↔
    ∀ e ∈ ts.Jtrack, ∀ g ∈ e.2, ∀ p ∈ pairs g, ¬ SameStock ts p.1 p.2 →
      AllHold σ (trackOccFirst e.1 p.1 p.2 tt dv y ts dmax) ∧
      AllHold σ (trackOccSecond e.1 p.1 p.2 tt dv y ts dmax) := by
  unfold trackOccupation trackOccBody
  simp only [allHold_collect]
  refine forall₂_congr fun e _ => forall₂_congr fun g _ => forall₂_congr fun p _ => ?_
  rw [← sameStock_iff]
  split
  · rename_i h; simp only [h, allHold_append, forall_const]
  · rename_i h; simp only [h, allHold_nil, false_implies, Bool.false_eq_true]

omit S in
theorem track_oks (ho : Oks (trackOccupation tt dv y ts dmax)) :
    ∀ e ∈ ts.Jtrack, ∀ g ∈ e.2, ∀ p ∈ pairs g, ¬ SameStock ts p.1 p.2 →
      Oks (trackOccFirst e.1 p.1 p.2 tt dv y ts dmax) ∧
      Oks (trackOccSecond e.1 p.1 p.2 tt dv y ts dmax) := by
  unfold trackOccupation trackOccBody at ho
  simp only [oks_collect] at ho
  intro e he g hg p hp hss
  have := ho e he g hg p hp
  rw [if_pos (sameStock_iff.2 hss)] at this
  exact oks_append.1 this

omit S in
theorem sameStock_symm {j jp : Val} (h : SameStock ts j jp) : SameStock ts jp j := by
  obtain ⟨h1, e, he, h2⟩ := h
  exact ⟨Ne.symm h1, e, he, h2.symm⟩

/-- the constraints of a listed pair of different trains -/
theorem track_pair {e : Val × List (List Val)} (he : e ∈ ts.Jtrack) {g : List Val} (hg : g ∈ e.2)
    {j jp : Val} (hp : (j, jp) ∈ pairs g) (hne : j ≠ jp) (hss : ¬ SameStock ts j jp)
    (ho : Oks (trackOccFirst e.1 j jp tt dv y ts dmax) ∧
      Oks (trackOccSecond e.1 j jp tt dv y ts dmax)) :
    (AllHold σ (trackOccFirst e.1 j jp tt dv y ts dmax) ∧
      AllHold σ (trackOccSecond e.1 j jp tt dv y ts dmax)) ↔
    ((¬ TrackExempt ts e.1 jp →
      OrderCoupling ts y (First3 y σ) (FirstIn y σ) e.1 j jp ∧
        TrackOne ts tt (Departs ts tt dv σ) (First3 y σ) e.1 jp j) ∧
    (¬ TrackExempt ts e.1 j → TrackOne ts tt (Departs ts tt dv σ) (First3 y σ) e.1 j jp)) := by
  obtain ⟨h1, h2⟩ := mem_pairs hp
  have n1 := S.hn.names.jtrack e he g hg _ h1
  have n2 := S.hn.names.jtrack e he g hg _ h2
  obtain ⟨a1, a2⟩ := track_first (σ := σ) ho.1
  obtain ⟨b1, b2⟩ := track_second (σ := σ) ho.2
  rw [a1, b1]
  refine and_congr (forall_congr' fun hx => ?_) (forall_congr' fun hx => ?_)
  · rw [keepTrainsOrder_iff S n1 hne (a2 hx).1,
      trainsOrderAtS_iff S n1 (Ne.symm hne) (fun h => hss (sameStock_symm h)) (a2 hx).2]
  · exact trainsOrderAtS_iff S n2 hne hss (b2 hx)

theorem track_iff (hw : WellFormed ts) (ho : Oks (trackOccupation tt dv y ts dmax)) :
    AllHold σ (trackOccupation tt dv y ts dmax) ↔
      TrackRule ts tt (Departs ts tt dv σ) y (First3 y σ) (FirstIn y σ) := by
  rw [track_allHold]
  unfold TrackRule
  have hoo := track_oks ho
  refine forall₂_congr fun e he => forall₂_congr fun g hg => ?_
  constructor
  · intro h j jp hs hss
    have hp := mem_pairs_iff.2 hs
    exact (track_pair S he hg hp (pairs_ne (hw.jtrack e he g hg) hp) hss
      (hoo e he g hg _ hp hss)).1 (h _ hp hss)
  · intro h p hp hss
    exact (track_pair S he hg hp (pairs_ne (hw.jtrack e he g hg) hp) hss
      (hoo e he g hg _ hp hss)).2 (h p.1 p.2 (mem_pairs_iff.1 hp) hss)

/-! ## Switches -/

omit S in
theorem switch_allHold : AllHold σ (switchOccupation tt dv y ts dmax) ↔
    ∀ e ∈ ts.Jswitch, ∀ pair ∈ e.2, AllHold σ (switchBody e.1 pair tt dv y ts dmax) := by
  unfold switchOccupation
  simp only [allHold_collect]

omit S in
theorem switch_oks : Oks (switchOccupation tt dv y ts dmax) ↔
    ∀ e ∈ ts.Jswitch, ∀ pair ∈ e.2, Oks (switchBody e.1 pair tt dv y ts dmax) := by
  unfold switchOccupation
  simp only [oks_collect]

/-- constraints of a switch pair -/
theorem switch_pair {e : Val × List (Dict Val String)} (he : e ∈ ts.Jswitch)
    {j jp : Val} {a b : String} (hp : [(j, a), (jp, b)] ∈ e.2) (hne : j ≠ jp)
    (hia : a = "in" ∨ a = "out") (hib : b = "in" ∨ b = "out") (hss : ¬ SameStock ts j jp)
    (ho : Oks (switchBody e.1 [(j, a), (jp, b)] tt dv y ts dmax)) :
    AllHold σ (switchBody e.1 [(j, a), (jp, b)] tt dv y ts dmax) ↔
      (∀ p m pp mp r, SwitchMoment ts tt (Departs ts tt dv σ) e.1 j a p m →
        SwitchMoment ts tt (Departs ts tt dv σ) e.1 jp b pp mp → Res tt r →
        (SwitchFirst ts (First3 y σ) (First4 y σ) (FirstIn y σ) e.1 j p jp pp → m + r ≤ mp) ∧
        (SwitchFirst ts (First3 y σ) (First4 y σ) (FirstIn y σ) e.1 jp pp j p → mp + r ≤ m)) := by
  have n := S.hn.names.jswitch e he
  have hj := n.2 _ hp (j, a) (by simp)
  have hjp := n.2 _ hp (jp, b) (by simp)
  have hs := S.hn.stations e he
  unfold switchBody at ho ⊢
  simp only at ho ⊢
  rw [if_pos (sameStock_iff.2 hss)] at ho ⊢
  obtain ⟨cs, hcs⟩ := ho
  obtain ⟨sp, hsp, hcs⟩ := bind_ok hcs
  obtain ⟨spp, hspp, hcs⟩ := bind_ok hcs
  rw [hsp, hspp]
  have ho : Oks (switchOcc e.1 j sp jp spp tt dv y ts dmax) ∧
      Oks (switchOcc e.1 jp spp j sp tt dv y ts dmax) := oks_append.1 ⟨cs, hcs⟩
  have u1 := departureStation_U S.hn.names n.1 hsp
  have u2 := departureStation_U S.hn.names n.1 hspp
  have ga : Dict.get? [(j, a), (jp, b)] j = some a := by simp [Dict.get?]
  have gb : Dict.get? [(j, a), (jp, b)] jp = some b := by simp [Dict.get?, hne]
  have e0 := allHold_append (σ := σ) (m := switchOcc e.1 j sp jp spp tt dv y ts dmax)
    (n := switchOcc e.1 jp spp j sp tt dv y ts dmax)
  rw [switchOcc_iff S hs hj hne u1 ga gb hia hib hsp hspp ho.1,
    switchOcc_iff S hs hjp (Ne.symm hne) u2 gb ga hib hia hspp hsp ho.2] at e0
  refine e0.trans ?_
  constructor
  · rintro ⟨h1, h2⟩ p m pp mp r hm hmp hr
    exact ⟨h2 pp mp p m r hmp hm hr, h1 p m pp mp r hm hmp hr⟩
  · intro h
    exact ⟨fun p m pp mp r hm hmp hr => (h p m pp mp r hm hmp hr).2,
      fun pp mp p m r hmp hm hr => (h p m pp mp r hm hmp hr).1⟩

theorem switch_iff (hw : WellFormed ts) (ho : Oks (switchOccupation tt dv y ts dmax)) :
    AllHold σ (switchOccupation tt dv y ts dmax) ↔
      SwitchRule ts tt (Departs ts tt dv σ) (First3 y σ) (First4 y σ) (FirstIn y σ) := by
  rw [switch_allHold]
  rw [switch_oks] at ho
  unfold SwitchRule
  refine forall₂_congr fun e he => forall₂_congr fun pair hpair => ?_
  have hoo := ho e he pair hpair
  obtain ⟨hnd, hpl⟩ := hw.jswitch e he pair hpair
  constructor
  · intro h j a jp b heq hss
    subst heq
    have hne : j ≠ jp := by
      simp only [Dict.keys, List.map_cons, List.map_nil, List.nodup_cons, List.mem_singleton] at hnd
      exact hnd.1
    exact (switch_pair S he hpair hne (hpl (j, a) (by simp)) (hpl (jp, b) (by simp)) hss hoo).1 h
  · intro h
    have hoo' := hoo
    unfold switchBody at hoo'
    split at hoo'
    · rename_i j a jp b
      by_cases hss : SameStock ts j jp
      · unfold switchBody
        have : ¬ notTheSameRollingStock j jp ts = true := fun h => sameStock_iff.1 h hss
        simp only
        rw [if_neg this]
        exact allHold_nil σ
      · have hne : j ≠ jp := by
          simp only [Dict.keys, List.map_cons, List.map_nil, List.nodup_cons, List.mem_singleton]
            at hnd
          exact hnd.1
        exact (switch_pair S he hpair hne (hpl (j, a) (by simp)) (hpl (jp, b) (by simp)) hss hoo).2
          (h j a jp b rfl hss)
    · obtain ⟨_, h⟩ := hoo'; cases h

end

theorem setting {ts : TrainSets} {tt : Timetable} {dmax : ℚ} {cat : Cat} {b : Built}
    (P : Parts ts tt dmax cat b) (hn : NamesOK ts) {σ : LpVar → ℚ} (ha : Admissible b σ) :
    Setting ts dmax cat b.dv b.y σ := ⟨P.hdv, P.hy, hn, ha.delays, ha.orders⟩

/-- the built problem imposes exactly the rules -/
theorem satisfies_iff_rules {ts : TrainSets} {tt : Timetable} {dmax : ℚ} {cat : Cat} {b : Built}
    (hb : buildProblem ts tt dmax cat = .ok b) (hn : NamesOK ts) (hw : WellFormed ts)
    {σ : LpVar → ℚ} (ha : Admissible b σ) :
    Satisfies b.prob σ ↔ AllRules ts tt (Departs ts tt b.dv σ) b.y (First3 b.y σ) (First4 b.y σ)
      (FirstIn b.y σ) := by
  have P := parts hb
  have S := setting P hn ha
  rw [P.sat, stay_iff (delayVariables_paths P.hdv) P.o2, single_iff S hw P.o3,
    track_iff S hw P.o4, circ_iff S P.o5, switch_iff S hw P.o6]
  constructor
  · rintro ⟨h1, h2, h3, h4, h5, h6⟩
    exact ⟨headway_sound S h1, h2, h3, h4, h5, h6⟩
  · rintro ⟨h1, h2, h3, h4, h5, h6⟩
    exact ⟨headway_complete S hw P.o1 h1, h2, h3, h4, h5, h6⟩

end Verif
