import Verif.Props.Rules

/-!
# C04, C06, C07, C54
-/

namespace Verif

section
variable {ts : TrainSets} {tt : Timetable} {dmax : ℚ} {cat : Cat} {b : Built} {σ : LpVar → ℚ}

/-! ## C06 -/

/-- **C06.** Two trains of different rolling stock that share switches of `s` pass them at least the
reservation time apart. -/
theorem C06_switches (hb : buildProblem ts tt dmax cat = .ok b) (hn : NamesOK ts)
    (hf : Feasible b σ) {s : Val} {l : List (Dict Val String)} (he : (s, l) ∈ ts.Jswitch)
    {j jp : Val} {x z : String} (hp : [(j, x), (jp, z)] ∈ l) (hne : j ≠ jp)
    (hx : x = "in" ∨ x = "out") (hz : z = "in" ∨ z = "out") (hss : ¬ SameStock ts j jp) :
    ∃ r, Res tt r ∧ ∀ p m pp mp, SwitchMoment ts tt (Departs ts tt b.dv σ) s j x p m →
      SwitchMoment ts tt (Departs ts tt b.dv σ) s jp z pp mp → m + r ≤ mp ∨ mp + r ≤ m := by
  have P := parts hb
  have S := setting P hn hf.adm
  have hoo := switch_oks.1 P.o6 _ he _ hp
  have hr := (switch_pair S he hp hne hx hz hss hoo).1
    (switch_allHold.1 ((P.sat σ).1 hf.sat).2.2.2.2.2 _ he _ hp)
  unfold switchBody at hoo
  simp only at hoo
  rw [if_pos (sameStock_iff.2 hss)] at hoo
  obtain ⟨cs, hcs⟩ := hoo
  obtain ⟨sp, hsp, hcs⟩ := bind_ok hcs
  obtain ⟨spp, hspp, hcs⟩ := bind_ok hcs
  obtain ⟨a, ha, hcs⟩ := bind_ok hcs
  unfold switchOcc at ha
  obtain ⟨el, hel, ha⟩ := bind_ok ha
  obtain ⟨er, her, ha⟩ := bind_ok ha
  obtain ⟨r, hres, ha⟩ := bind_ok ha
  obtain ⟨pl, hpl, ha⟩ := bind_ok ha
  obtain ⟨pr, hpr, ha⟩ := bind_ok ha
  have ga : Dict.get? [(j, x), (jp, z)] j = some x := by simp [Dict.get?]
  have gb : Dict.get? [(j, x), (jp, z)] jp = some z := by simp [Dict.get?, hne]
  have hs := hn.stations _ he
  refine ⟨r, tauRes_ok.1 hres, fun p m pp mp hm hmp => ?_⟩
  have hrr := hr p m pp mp r hm hmp (tauRes_ok.1 hres)
  obtain ⟨rfl, _⟩ := (moment_iff hs ga hx hsp hel hpl).1 hm
  obtain ⟨rfl, _⟩ := (moment_iff hs gb hz hspp her hpr).1 hmp
  suffices SwitchFirst ts (First3 b.y σ) (First4 b.y σ) (FirstIn b.y σ) s j p jp pp ∨
      SwitchFirst ts (First3 b.y σ) (First4 b.y σ) (FirstIn b.y σ) s jp pp j p from
    this.imp hrr.1 hrr.2
  rcases has_jswitch P.hy he hp rfl hsp hspp with ⟨h1, h2, h3, h4⟩ | ⟨h1, h2, h4⟩ | ⟨h1, h2, h4⟩ |
    ⟨h1, h2, h3, h4⟩
  · have hmo := (canMO_iff h3).1 rfl
    subst h1
    rcases firstP_total P hf.adm h4 with h | h
    · exact .inl (.inl ⟨rfl, h2, hmo, firstIn_iff.2 h⟩)
    · exact .inr (.inl ⟨rfl, h2, mayOvertake_symm hmo, firstIn_iff.2 h⟩)
  · subst h1
    have h2' : p = s ∨ ¬ MayOvertake ts j jp s := h2.imp id fun h hm => by
      have := (canMO_iff h).2 hm; cases this
    rcases firstP_total P hf.adm h4 with h | h
    · exact .inl (.inr (.inl ⟨rfl, h2', first3_iff.2 h⟩))
    · exact .inr (.inr (.inl ⟨rfl, h2'.imp id fun h hm => h (mayOvertake_symm hm),
        first3_iff.2 h⟩))
  · rcases firstP_total P hf.adm h4 with h | h
    · exact .inl (.inr (.inr (.inl ⟨h1, h2, first4_iff.2 h⟩)))
    · exact .inr (.inr (.inr (.inl ⟨Ne.symm h1, h2.symm, first4_iff.2 h⟩)))
  · rcases firstP_total P hf.adm h4 with h | h
    · exact .inl (.inr (.inr (.inr ⟨h1, h2, h3, firstIn_iff.2 h⟩)))
    · exact .inr (.inr (.inr (.inr ⟨Ne.symm h1, h3, h2, firstIn_iff.2 h⟩)))

/-- trains 3 and 1 meet at the switches of A: train 3 enters at minute 16, train 1 leaves at 4 -/
example : ∃ b, buildProblem Small.ts Small.tt 10 .integer = .ok b ∧ NamesOK Small.ts ∧
    Feasible b Small.σ ∧ (.str "A", [[(.int 3, "in"), (.int 1, "out")]]) ∈ Small.ts.Jswitch ∧
    ¬ SameStock Small.ts (.int 3) (.int 1) ∧
    SwitchMoment Small.ts Small.tt (Departs Small.ts Small.tt b.dv Small.σ) (.str "A") (.int 3) "in"
      (.str "B") 16 ∧
    SwitchMoment Small.ts Small.tt (Departs Small.ts Small.tt b.dv Small.σ) (.str "A") (.int 1) "out"
      (.str "A") 4 := by
  obtain ⟨b, hb, hf⟩ := Small.feasible
  refine ⟨b, hb, Small.namesOK, hf, by decide, sameStock_iff.1 (by decide), .inr ⟨rfl, ?_, 11, 5,
    departs_of_check hb (by decide +kernel), by unfold Pass; decide +kernel, by norm_num⟩,
    .inl ⟨rfl, rfl, departs_of_check hb (by decide +kernel)⟩⟩
  exact prevOf_iff.2 ⟨[.str "B", .str "A"], by decide, by decide⟩

/-! ## C07 -/

theorem edt_ge {S : Dict Val (List Val)} {tt : Timetable} {j s : Val} {e : ℚ}
    (h : earliestDepTime S tt j s = .ok e) :
    (∀ d x, tt.schedule = some d → Dict.get? d (key2 j s) = some x → x ≤ e) ∧
    (∀ u, Dict.get? tt.initialConditions (key2 j s) = some u → u ≤ e) := by
  unfold earliestDepTime at h
  rw [edtFuel] at h
  have key : ∀ u : ℚ, (∀ d x, tt.schedule = some d → Dict.get? d (key2 j s) = some x →
      x ≤ maxSched (schedOf tt j s) u) ∧ u ≤ maxSched (schedOf tt j s) u := by
    intro u
    unfold maxSched
    constructor
    · intro d x hd hx
      have : schedOf tt j s = some x := by unfold schedOf; rw [hd]; exact hx
      rw [this]; exact le_max_left _ _
    · split
      · exact le_max_right _ _
      · exact le_refl _
  split at h
  · rename_i u hu
    cases h
    refine ⟨(key u).1, ?_⟩
    intro u' hu'
    rw [hu] at hu'; cases hu'
    exact (key u).2
  · rename_i hu
    obtain ⟨_, _, h⟩ := bind_ok h
    obtain ⟨_, _, h⟩ := bind_ok h
    obtain ⟨_, _, h⟩ := bind_ok h
    obtain ⟨_, _, h⟩ := bind_ok h
    obtain ⟨_, _, h⟩ := bind_ok h
    cases h
    refine ⟨(key _).1, ?_⟩
    intro u' hu'
    rw [hu] at hu'; cases hu'

/-- **C07.** No train leaves before its schedule or its initial condition, nor more than `d_max`
after its earliest possible departure. -/
theorem C07_notEarly (hb : buildProblem ts tt dmax cat = .ok b) (hf : Feasible b σ) {j s : Val}
    {t : ℚ} (ht : Departs ts tt b.dv σ j s t) :
    (∀ d x, tt.schedule = some d → Dict.get? d (key2 j s) = some x → x ≤ t) ∧
    (∀ u, Dict.get? tt.initialConditions (key2 j s) = some u → u ≤ t) ∧
    (∃ e, earliestDepTime ts.paths tt j s = .ok e ∧ e ≤ t ∧ t ≤ e + dmax) := by
  obtain ⟨e, v, he, hv, rfl⟩ := ht
  obtain ⟨h1, h2⟩ := delay_bounds (parts hb).hdv hf.adm.delays hv
  obtain ⟨h3, h4⟩ := edt_ge he
  exact ⟨fun d x hd hx => by linarith [h3 d x hd hx], fun u hu => by linarith [h4 u hu],
    e, he, by linarith, by linarith⟩

/-- train 1 at A: schedule 0, initial condition 4, leaves at 4 -/
example : ∃ b, buildProblem Small.ts Small.tt 10 .integer = .ok b ∧ Feasible b Small.σ ∧
    Departs Small.ts Small.tt b.dv Small.σ (.int 1) (.str "A") 4 ∧
    schedOf Small.tt (.int 1) (.str "A") = some 0 ∧
    Dict.get? Small.tt.initialConditions (key2 (.int 1) (.str "A")) = some 4 := by
  obtain ⟨b, hb, hf⟩ := Small.feasible
  exact ⟨b, hb, hf, departs_of_check hb (by decide +kernel), by decide +kernel, by decide +kernel⟩

/-! ## C54 -/

/-- **C54.** The exemption test is exactly "the trains are a pair of `Jround`", it is symmetric; for
such pairs the builders emit nothing, and the constraints emitted are those of all other listed
pairs, with no exception. -/
theorem C54_sameRollingStock (ts : TrainSets) (tt : Timetable) (dv : DelayVars) (y : OrderVars)
    (dmax : ℚ) (j jp : Val) :
    (notTheSameRollingStock j jp ts = false ↔ SameStock ts j jp) ∧
    (SameStock ts j jp ↔ SameStock ts jp j) ∧
    (SameStock ts j jp → ∀ s x z, trackOccBody s j jp tt dv y ts dmax = .ok [] ∧
      switchBody s [(j, x), (jp, z)] tt dv y ts dmax = .ok []) ∧
    (∀ σ, AllHold σ (singleLine tt dv y ts dmax) ↔
      ∀ e ∈ ts.Josingle, ∀ p ∈ e.2, ¬ SameStock ts p.1 p.2 →
        AllHold σ (singleLineConstrain e.1.1 e.1.2 p.1 p.2 tt dv y ts dmax) ∧
        AllHold σ (singleLineConstrain e.1.2 e.1.1 p.2 p.1 tt dv y ts dmax)) ∧
    (∀ σ, AllHold σ (trackOccupation tt dv y ts dmax) ↔
      ∀ e ∈ ts.Jtrack, ∀ g ∈ e.2, ∀ p ∈ pairs g, ¬ SameStock ts p.1 p.2 →
        AllHold σ (trackOccFirst e.1 p.1 p.2 tt dv y ts dmax) ∧
        AllHold σ (trackOccSecond e.1 p.1 p.2 tt dv y ts dmax)) ∧
    (∀ σ s x z, ¬ SameStock ts j jp →
      AllHold σ (switchBody s [(j, x), (jp, z)] tt dv y ts dmax) →
      ∃ sp spp, departureStation4switches s j [(j, x), (jp, z)] ts = .ok sp ∧
        departureStation4switches s jp [(j, x), (jp, z)] ts = .ok spp ∧
        AllHold σ (switchOcc s j sp jp spp tt dv y ts dmax) ∧
        AllHold σ (switchOcc s jp spp j sp tt dv y ts dmax)) := by
  have h1 : notTheSameRollingStock j jp ts = false ↔ SameStock ts j jp := by
    rw [← Bool.not_eq_true, sameStock_iff, not_not]
  refine ⟨h1, ⟨sameStock_symm, sameStock_symm⟩, ?_, fun σ => single_allHold,
    fun σ => track_allHold, ?_⟩
  · intro h s x z
    have := h1.2 h
    simp [trackOccBody, switchBody, this]
  · intro σ s x z hss h
    unfold switchBody at h
    simp only at h
    rw [if_pos (sameStock_iff.2 hss)] at h
    obtain ⟨cs, hcs, hall⟩ := h
    obtain ⟨sp, hsp, hcs⟩ := bind_ok hcs
    obtain ⟨spp, hspp, hcs⟩ := bind_ok hcs
    have := (allHold_append (σ := σ) (m := switchOcc s j sp jp spp tt dv y ts dmax)
      (n := switchOcc s jp spp j sp tt dv y ts dmax)).1 ⟨cs, hcs, hall⟩
    exact ⟨sp, spp, hsp, hspp, this⟩

/-- trains 3 and 4 of the small instance are the same rolling stock, 1 and 3 are not -/
example : SameStock Small.ts (.int 3) (.int 4) ∧ ¬ SameStock Small.ts (.int 1) (.int 3) :=
  ⟨not_not.1 (fun h => by have := sameStock_iff.2 h; revert this; decide),
    sameStock_iff.1 (by decide)⟩

/-! ## C04 -/

/-- the full claim C04 for one instance: two trains of different rolling stock in one group of
`Jtrack[s]` that do not skip `s` and go on under their own number never occupy the track
together -/
def StationTrackKept (ts : TrainSets) (tt : Timetable) (b : Built) (σ : LpVar → ℚ) : Prop :=
  ∀ s gs, (s, gs) ∈ ts.Jtrack → ∀ g ∈ gs, ∀ j ∈ g, ∀ jp ∈ g, j ≠ jp → ¬ SameStock ts j jp →
    ¬ Skips ts j s → ¬ Skips ts jp s → (∀ k, ¬ ContinuedBy ts j s k) →
    (∀ k, ¬ ContinuedBy ts jp s k) →
    ∃ r, ExtraRes ts tt s r ∧ ∀ t a tp ap, Departs ts tt b.dv σ j s t →
      Departs ts tt b.dv σ jp s tp → Arrives ts tt (Departs ts tt b.dv σ) j s a →
      Arrives ts tt (Departs ts tt b.dv σ) jp s ap → t + r ≤ ap ∨ tp + r ≤ a

theorem trainsOrder_res_ok {s j jp : Val} {dv : DelayVars} {y : OrderVars}
    (h : Oks (trainsOrderAtS s j jp tt dv y ts dmax)) (hc : ∀ k, ¬ ContinuedBy ts j s k) :
    ∃ r, ExtraRes ts tt s r := by
  have hn : subsequentTrainAtJround ts j s = .none := by
    by_contra h'; exact hc _ (continuedBy_iff.2 ⟨rfl, h'⟩)
  obtain ⟨cs, h⟩ := h
  unfold trainsOrderAtS at h
  simp only [hn, ne_eq, not_true_eq_false, if_false] at h
  obtain ⟨x, _, h⟩ := bind_ok h
  obtain ⟨e, _, h⟩ := bind_ok h
  obtain ⟨r, hr, h⟩ := bind_ok h
  exact ⟨r, addSwitchRes_iff.1 hr⟩

/-- **C04**, partial: the claim holds for all pairs of trains that the code does not exempt. Missing:
the code exempts a train at `s` when the *name* of `s` is a substring of the name of the train's
skipped station, not only when the train skips `s` (see `C04_stationTrack_false`). -/
theorem C04_stationTrack_partial (hb : buildProblem ts tt dmax cat = .ok b) (hn : NamesOK ts)
    (hf : Feasible b σ) {s : Val} {gs : List (List Val)} (he : (s, gs) ∈ ts.Jtrack)
    {g : List Val} (hg : g ∈ gs) {j jp : Val} (hj : j ∈ g) (hjp : jp ∈ g) (hne : j ≠ jp)
    (hss : ¬ SameStock ts j jp) (hx : ¬ TrackExempt ts s j) (hxp : ¬ TrackExempt ts s jp)
    (hc : ∀ k, ¬ ContinuedBy ts j s k) (hcp : ∀ k, ¬ ContinuedBy ts jp s k) :
    ∃ r, ExtraRes ts tt s r ∧ ∀ t a tp ap, Departs ts tt b.dv σ j s t →
      Departs ts tt b.dv σ jp s tp → Arrives ts tt (Departs ts tt b.dv σ) j s a →
      Arrives ts tt (Departs ts tt b.dv σ) jp s ap → t + r ≤ ap ∨ tp + r ≤ a := by
  have P := parts hb
  have S := setting P hn hf.adm
  have both : TrackOne ts tt (Departs ts tt b.dv σ) (First3 b.y σ) s jp j ∧
      TrackOne ts tt (Departs ts tt b.dv σ) (First3 b.y σ) s j jp ∧
      Oks (trainsOrderAtS s j jp tt b.dv b.y ts dmax) := by
    rcases pairs_of_mem hj hjp hne with h | h
    · have ho := track_oks P.o4 _ he _ hg _ h hss
      have hr := (track_pair S he hg h hne hss ho).1
        (track_allHold.1 ((P.sat σ).1 hf.sat).2.2.2.1 _ he _ hg _ h hss)
      exact ⟨(hr.1 hxp).2, hr.2 hx, (track_second (σ := σ) ho.2).2 hx⟩
    · have hss' : ¬ SameStock ts jp j := fun h => hss (sameStock_symm h)
      have ho := track_oks P.o4 _ he _ hg _ h hss'
      have hr := (track_pair S he hg h (Ne.symm hne) hss' ho).1
        (track_allHold.1 ((P.sat σ).1 hf.sat).2.2.2.1 _ he _ hg _ h hss')
      exact ⟨hr.2 hxp, (hr.1 hx).2, ((track_first (σ := σ) ho.1).2 hx).2⟩
  obtain ⟨h1, h2, ho⟩ := both
  obtain ⟨r, hr⟩ := trainsOrder_res_ok ho hc
  refine ⟨r, hr, fun t a tp ap ht htp ha hap => ?_⟩
  rcases firstP_total P hf.adm (hasY3_jtrack' P he hg hj hjp hne) with h | h
  · exact .inl (h2.2 hc (first3_iff.2 h) t ap r ht hap hr)
  · exact .inr (h1.2 hcp (first3_iff.2 h) tp a r htp ha hr)

/-- trains 1 and 2 at B -/
example : ∃ b, buildProblem Small.ts Small.tt 10 .integer = .ok b ∧ NamesOK Small.ts ∧
    Feasible b Small.σ ∧ (.str "B", [[.int 1, .int 2]]) ∈ Small.ts.Jtrack ∧
    ¬ SameStock Small.ts (.int 1) (.int 2) ∧ trackSkip Small.ts (.str "B") (.int 1) = .ok false ∧
    trackSkip Small.ts (.str "B") (.int 2) = .ok false ∧
    subsequentTrainAtJround Small.ts (.int 1) (.str "B") = .none ∧
    Departs Small.ts Small.tt b.dv Small.σ (.int 1) (.str "B") 10 ∧
    Departs Small.ts Small.tt b.dv Small.σ (.int 2) (.str "B") 12 := by
  obtain ⟨b, hb, hf⟩ := Small.feasible
  exact ⟨b, hb, Small.namesOK, hf, by decide, sameStock_iff.1 (by decide), by decide +kernel,
    by decide +kernel, by decide, departs_of_check hb (by decide +kernel),
    departs_of_check hb (by decide +kernel)⟩

end

/-- two trains A → KO → "KO(STM)"; both end at "KO(STM)" and both stop on the same track of KO -/
def exampleKO : TrainSets where
  skipStation := some [(.int 1, .str "KO(STM)"), (.int 2, .str "KO(STM)")]
  paths := [(.int 1, [.str "A", .str "KO", .str "KO(STM)"]),
    (.int 2, [.str "A", .str "KO", .str "KO(STM)"])]
  J := [.int 1, .int 2]
  Jd := []
  Josingle := []
  Jround := []
  Jtrack := [(.str "KO", [[.int 1, .int 2]])]
  Jswitch := []
  addSwithes := .none

def exampleKOtt : Timetable where
  tauPass := [("1_A_KO", 3), ("2_A_KO", 3), ("1_KO_KO(STM)", 3), ("2_KO_KO(STM)", 3)]
  tauHeadway := []
  tauStop := [("1_KO", 2), ("2_KO", 2)]
  tauPrep := []
  tauRes := some 1
  schedule := .none
  initialConditions := [("1_A", 0), ("2_A", 1)]
  penaltyWeights := []

/-- **C04 is false as stated.** Trains 1 and 2 are at station "KO" from 3 to 5 and from 4 to 6, on
the same track, in a feasible assignment: both are exempt because "KO" is a substring of "KO(STM)",
where they end. -/
theorem C04_stationTrack_false : ∃ ts tt dmax cat b σ, buildProblem ts tt dmax cat = .ok b ∧
    NamesOK ts ∧ WellFormed ts ∧ Feasible b σ ∧ ¬ StationTrackKept ts tt b σ := by
  have : ∃ b, buildProblem exampleKO exampleKOtt 10 .integer = .ok b ∧ Feasible b (fun _ => 0) :=
    feasible_of_check (by decide +kernel)
      (fun _ _ _ _ => ⟨le_refl _, by norm_num, 0, by simp⟩) (fun _ _ _ _ _ _ => .inl rfl)
  obtain ⟨b, hb, hf⟩ := this
  refine ⟨exampleKO, exampleKOtt, 10, .integer, b, fun _ => 0, hb, ?_, ?_, hf, ?_⟩
  · refine ⟨⟨?_, ?_, ?_, ?_, ?_, ?_⟩, ?_⟩ <;> decide
  · refine ⟨?_, ?_, ?_, ?_⟩ <;> decide
  · intro h
    have hcont : ∀ j k, ¬ ContinuedBy exampleKO j (.str "KO") k := by
      rintro j k ⟨ps, h, _⟩; cases h
    have htake : ∀ j k, ¬ TakesOver exampleKO j (.str "KO") k := by
      rintro j k ⟨ps, h, _⟩; cases h
    obtain ⟨r, hr, hall⟩ := h (.str "KO") _ List.mem_cons_self [.int 1, .int 2] List.mem_cons_self
      (.int 1) (by decide) (.int 2) (by decide) (by decide) (sameStock_iff.1 (by decide))
      (fun h => by have := skipStation_iff.2 h; revert this; decide)
      (fun h => by have := skipStation_iff.2 h; revert this; decide) (hcont _) (hcont _)
    have hr0 : r = 0 := by
      rcases hr with ⟨⟨l, hl, _⟩, _⟩ | ⟨_, h⟩
      · cases hl
      · exact h
    subst hr0
    have := hall 5 3 6 4 (departs_of_check hb (by decide +kernel))
      (departs_of_check hb (by decide +kernel))
      (.inr (.inl ⟨htake _, .str "A", 0, 3, prevOf_iff.2 ⟨_, rfl, by decide⟩, by decide,
        departs_of_check hb (by decide +kernel), by unfold Pass; decide +kernel, by norm_num⟩))
      (.inr (.inl ⟨htake _, .str "A", 1, 3, prevOf_iff.2 ⟨_, rfl, by decide⟩, by decide,
        departs_of_check hb (by decide +kernel), by unfold Pass; decide +kernel, by norm_num⟩))
    norm_num at this

end Verif
