import Verif.Proofs.Complete
import Verif.Examples.Check

/-!
# C01–C07, C54: what every answer of the solver respects

Each theorem quantifies over all train sets, timetables, bounds, categories and over every
assignment that satisfies the constraints and the declared domains. Times on which a rule depends
are asserted to exist (`∃`) because the problem was built.
-/

namespace Verif

section
variable {ts : TrainSets} {tt : Timetable} {dmax : ℚ} {cat : Cat} {b : Built} {σ : LpVar → ℚ}

theorem hasY3_jd' (P : Parts ts tt dmax cat b) {e : Val × Dict Val (List (List Val))}
    (he : e ∈ ts.Jd) {e2 : Val × List (List Val)} (he2 : e2 ∈ e.2) {g : List Val} (hg : g ∈ e2.2)
    {j jp : Val} (hj : j ∈ g) (hjp : jp ∈ g) (hne : j ≠ jp) :
    findP b.y (j, jp, oneStation, e.1) ≠ .none ∨ findP b.y (jp, j, oneStation, e.1) ≠ .none := by
  rcases pairs_of_mem hj hjp hne with h | h
  · exact hasY3_jd P.hy he he2 hg h
  · exact (hasY3_jd P.hy he he2 hg h).symm

theorem hasY3_jtrack' (P : Parts ts tt dmax cat b) {e : Val × List (List Val)}
    (he : e ∈ ts.Jtrack) {g : List Val} (hg : g ∈ e.2)
    {j jp : Val} (hj : j ∈ g) (hjp : jp ∈ g) (hne : j ≠ jp) :
    findP b.y (j, jp, oneStation, e.1) ≠ .none ∨ findP b.y (jp, j, oneStation, e.1) ≠ .none := by
  rcases pairs_of_mem hj hjp hne with h | h
  · exact hasY3_jtrack P.hy he hg h
  · exact (hasY3_jtrack P.hy he hg h).symm

theorem span_headway_ok {s sp j jp : Val} {dv : DelayVars} {y : OrderVars}
    (h : Oks (minimalSpanConstrain s sp j jp tt dv y ts dmax)) : ∃ x, Headway tt j jp s sp x := by
  obtain ⟨cs, h⟩ := h
  unfold minimalSpanConstrain at h
  obtain ⟨lhs, hl, h⟩ := bind_ok h
  obtain ⟨e, he, h⟩ := bind_ok h
  obtain ⟨x, hx, h⟩ := bind_ok h
  exact ⟨x, tauHeadway_ok.1 hx⟩

/-! ## C01 -/

/-- **C01.** Two distinct trains of a group of `Jd[s][sp]` leave `s` at least the tabulated headway
apart, in one of the two orders. -/
theorem C01_headway (hb : buildProblem ts tt dmax cat = .ok b) (hn : NamesOK ts)
    (hf : Feasible b σ) {e : Val × Dict Val (List (List Val))} (he : e ∈ ts.Jd)
    {e2 : Val × List (List Val)} (he2 : e2 ∈ e.2) {g : List Val} (hg : g ∈ e2.2)
    {j jp : Val} (hj : j ∈ g) (hjp : jp ∈ g) (hne : j ≠ jp) :
    ∃ h h', Headway tt j jp e.1 e2.1 h ∧ Headway tt jp j e.1 e2.1 h' ∧
      ∀ t tp, Departs ts tt b.dv σ j e.1 t → Departs ts tt b.dv σ jp e.1 tp →
        t + h ≤ tp ∨ tp + h' ≤ t := by
  have P := parts hb
  have S := setting P hn hf.adm
  have hr := headway_sound S ((P.sat σ).1 hf.sat).1
  have ho := span_parts P.o1 e he e2 he2 g hg
  have hoo : Oks (minimalSpanConstrain e.1 e2.1 j jp tt b.dv b.y ts dmax) ∧
      Oks (minimalSpanConstrain e.1 e2.1 jp j tt b.dv b.y ts dmax) := by
    rcases pairs_of_mem hj hjp hne with h | h
    · exact ho _ h
    · exact (ho _ h).symm
  obtain ⟨h, hh⟩ := span_headway_ok hoo.1
  obtain ⟨h', hh'⟩ := span_headway_ok hoo.2
  refine ⟨h, h', hh, hh', fun t tp ht htp => ?_⟩
  rcases firstP_total P hf.adm (hasY3_jd' P he he2 hg hj hjp hne) with h1 | h1
  · exact .inl (hr e he e2 he2 g hg j hj jp hjp hne (first3_iff.2 h1) t tp h ht htp hh)
  · exact .inr (hr e he e2 he2 g hg jp hjp j hj (Ne.symm hne) (first3_iff.2 h1) tp t h' htp ht hh')

/-- trains 1 and 2 leave `A` in a common group of the small instance, at minutes 4 and 6 -/
example : ∃ b, buildProblem Small.ts Small.tt 10 .integer = .ok b ∧ NamesOK Small.ts ∧
    Feasible b Small.σ ∧ Departs Small.ts Small.tt b.dv Small.σ (.int 1) (.str "A") 4 ∧
    Departs Small.ts Small.tt b.dv Small.σ (.int 2) (.str "A") 6 ∧
    (∃ e ∈ Small.ts.Jd, ∃ e2 ∈ e.2, ∃ g ∈ e2.2, e.1 = .str "A" ∧ .int 1 ∈ g ∧ .int 2 ∈ g) := by
  obtain ⟨b, hb, hf⟩ := Small.feasible
  exact ⟨b, hb, Small.namesOK, hf, departs_of_check hb (by decide +kernel),
    departs_of_check hb (by decide +kernel), by decide⟩

/-! ## C02 -/

theorem single_pass_ok {s sp j jp : Val} {dv : DelayVars} {y : OrderVars}
    (h : Oks (singleLineConstrain s sp j jp tt dv y ts dmax)) : ∃ x, Pass tt jp sp s x := by
  obtain ⟨cs, h⟩ := h
  unfold singleLineConstrain at h
  obtain ⟨lhs, hl, h⟩ := bind_ok h
  obtain ⟨e, he, h⟩ := bind_ok h
  obtain ⟨x, hx, h⟩ := bind_ok h
  exact ⟨x, tauPass_ok.1 hx⟩

/-- **C02.** Of two opposing trains listed in `Josingle[(s, sp)]` (different rolling stock) one
enters the line only after the other has left it. -/
theorem C02_singleLine (hb : buildProblem ts tt dmax cat = .ok b) (hn : NamesOK ts)
    (hf : Feasible b σ) {s sp : Val} {l : List (Val × Val)} (he : ((s, sp), l) ∈ ts.Josingle)
    {j jp : Val} (hp : (j, jp) ∈ l) (hne : j ≠ jp) (hss : ¬ SameStock ts j jp) :
    ∃ w w', Pass tt j s sp w ∧ Pass tt jp sp s w' ∧
      ∀ t tp, Departs ts tt b.dv σ j s t → Departs ts tt b.dv σ jp sp tp →
        t + w ≤ tp ∨ tp + w' ≤ t := by
  have P := parts hb
  have S := setting P hn hf.adm
  have ho := single_oks P.o3 _ he _ hp hss
  obtain ⟨w', hw'⟩ := single_pass_ok ho.1
  obtain ⟨w, hw⟩ := single_pass_ok ho.2
  have hr := (single_pair S he hp (fun h => hne h.1) ho).1
    (single_allHold.1 ((P.sat σ).1 hf.sat).2.2.1 _ he _ hp hss)
  refine ⟨w, w', hw, hw', fun t tp ht htp => ?_⟩
  rcases firstP_total P hf.adm (hasY4_josingle P.hy he hp) with h1 | h1
  · exact .inl (hr.1 (first4_iff.2 h1) t tp w ht htp hw)
  · exact .inr (hr.2 (first4_iff.2 h1) t tp w' ht htp hw')

/-- trains 1 (A → B) and 3 (B → A) -/
example : ∃ b, buildProblem Small.ts Small.tt 10 .integer = .ok b ∧ NamesOK Small.ts ∧
    Feasible b Small.σ ∧ Departs Small.ts Small.tt b.dv Small.σ (.int 1) (.str "A") 4 ∧
    Departs Small.ts Small.tt b.dv Small.σ (.int 3) (.str "B") 11 ∧
    (((.str "A", .str "B"), [(.int 1, .int 3), (.int 2, .int 3), (.int 4, .int 3)])
      ∈ Small.ts.Josingle) ∧ ¬ SameStock Small.ts (.int 1) (.int 3) := by
  obtain ⟨b, hb, hf⟩ := Small.feasible
  exact ⟨b, hb, Small.namesOK, hf, departs_of_check hb (by decide +kernel),
    departs_of_check hb (by decide +kernel), by decide, sameStock_iff.1 (by decide)⟩

/-! ## C03 -/

/-- what a successfully built minimal-stay constraint looked up -/
theorem stay_lookups {j s p : Val} {dv : DelayVars} (h : Oks (minimalStayConstrain j s tt dv ts))
    (hprev : PrevOf ts j s p) (hp : p ≠ .none) {σ : LpVar → ℚ} {tp : ℚ}
    (hd : Departs ts tt dv σ j s tp) :
    ∃ t w st, Departs ts tt dv σ j p t ∧ Pass tt j p s w ∧ Stop tt j s st := by
  obtain ⟨cs, h⟩ := h
  unfold minimalStayConstrain at h
  obtain ⟨path, hpath, h⟩ := bind_ok h
  obtain ⟨sp, hsp, h⟩ := bind_ok h
  have : sp = p := prevOf_unique (prevOf_iff.2 ⟨path, hpath, hsp⟩) hprev
  subst this
  simp only [ne_eq, hp, not_false_eq_true, if_true] at h
  obtain ⟨dj, hdj, h⟩ := bind_ok h
  obtain ⟨e, v, _, hv, _⟩ := hd
  unfold delayAt at hv
  rw [hdj] at hv
  have hv' : Dict.get? dj s = some v := Dict.at!_ok.1 hv
  simp only [hv'] at h
  obtain ⟨lhs, _, h⟩ := bind_ok h
  obtain ⟨dp, hdp, h⟩ := bind_ok h
  obtain ⟨ep, hep, h⟩ := bind_ok h
  obtain ⟨w, hw, h⟩ := bind_ok h
  obtain ⟨st, hst, h⟩ := bind_ok h
  exact ⟨ep + σ dp, w, st, ⟨ep, dp, hep, hdp, rfl⟩, tauPass_ok.1 hw, tauStop_ok.1 hst⟩

/-- **C03**, one step. If `j` leaves `s` at `tp` then it left the previous station, and running and
dwell time lie in between. -/
theorem C03_step (hb : buildProblem ts tt dmax cat = .ok b) (hf : Feasible b σ) {j s p : Val}
    (hj : j ∈ ts.J) (hprev : PrevOf ts j s p) (hp : p ≠ .none) {tp : ℚ}
    (hd : Departs ts tt b.dv σ j s tp) :
    ∃ t w st, Departs ts tt b.dv σ j p t ∧ Pass tt j p s w ∧ Stop tt j s st ∧ t + w + st ≤ tp := by
  have P := parts hb
  obtain ⟨path, hpath, hpo⟩ := hprev
  have ho := stay_oks P.o2 j hj path hpath s (prevOn_mem hpo)
  obtain ⟨t, w, st, h1, h2, h3⟩ := stay_lookups ho ⟨path, hpath, hpo⟩ hp hd
  have hr := (stay_iff (delayVariables_paths P.hdv) P.o2).1 ((P.sat σ).1 hf.sat).2.1
  exact ⟨t, w, st, h1, h2, h3, hr j hj s p ⟨path, hpath, hpo⟩ hp t tp w st h1 hd h2 h3⟩

/-- least time from the departure at the first to the departure at the last of the listed stations:
the sum of all running and dwell times -/
inductive RunTime (tt : Timetable) (j : Val) : List Val → ℚ → Prop
  | one (s : Val) : RunTime tt j [s] 0
  | cons {s s' : Val} {rest : List Val} {w st r : ℚ} : Pass tt j s s' w → Stop tt j s' st →
      RunTime tt j (s' :: rest) r → RunTime tt j (s :: s' :: rest) (w + st + r)

/-- add a last station -/
theorem RunTime.snoc {tt : Timetable} {j s : Val} {mid : List Val} {p q : Val} {r w st : ℚ}
    (h : RunTime tt j (s :: mid ++ [p]) r) (hw : Pass tt j p q w) (hst : Stop tt j q st) :
    RunTime tt j (s :: mid ++ [p, q]) (r + w + st) := by
  induction mid generalizing s r with
  | nil =>
    cases h with
    | cons h1 h2 h3 =>
      cases h3
      rename_i w0 st0
      have := RunTime.cons h1 h2 (RunTime.cons hw hst (RunTime.one q))
      rw [show w0 + st0 + 0 + w + st = w0 + st0 + (w + st + 0) by ring]
      exact this
  | cons m mid ih =>
    cases h with
    | cons h1 h2 h3 =>
      rename_i w0 st0 r0
      have := RunTime.cons h1 h2 (ih h3)
      rw [show w0 + st0 + r0 + w + st = w0 + st0 + (r0 + w + st) by ring]
      exact this

/-- **C03.** The departure at any later station of the path is at least the departure at any earlier
one plus all running and dwell times in between (and the departures in between exist). -/
theorem C03_runningTimes (hb : buildProblem ts tt dmax cat = .ok b) (hf : Feasible b σ) {j : Val}
    (hj : j ∈ ts.J) {path l r mid : List Val} {s s' : Val}
    (hpath : Dict.get? ts.paths j = some path) (hsplit : path = l ++ (s :: mid ++ [s']) ++ r)
    (hnd : path.Nodup) (hnn : Val.none ∉ path) {tp : ℚ} (hd : Departs ts tt b.dv σ j s' tp) :
    ∃ t rt, Departs ts tt b.dv σ j s t ∧ RunTime tt j (s :: mid ++ [s']) rt ∧ t + rt ≤ tp := by
  induction mid using List.reverseRecOn generalizing s' r tp with
  | nil =>
    have hprev : PrevOf ts j s' s := by
      refine ⟨path, hpath, .inl ⟨l, r, by rw [hsplit]; simp, ?_, ?_⟩⟩
      · rw [hsplit] at hnd
        intro hm
        have := (List.nodup_append.1 (List.append_assoc l _ r ▸ hnd)).2.2 s' hm s' (by simp)
        exact this rfl
      · rw [hsplit] at hnd
        rintro rfl
        simp [List.nodup_append] at hnd
    have hs : s ≠ .none := by rintro rfl; exact hnn (by rw [hsplit]; simp)
    obtain ⟨t, w, st, h1, h2, h3, h4⟩ := C03_step hb hf hj hprev hs hd
    exact ⟨t, _, h1, .cons h2 h3 (.one s'), by linarith⟩
  | append_singleton mid m ih =>
    have hprev : PrevOf ts j s' m := by
      refine ⟨path, hpath, .inl ⟨l ++ s :: mid, r, by rw [hsplit]; simp, ?_, ?_⟩⟩
      · have e : path = (l ++ s :: mid) ++ (m :: s' :: r) := by rw [hsplit]; simp
        rw [e] at hnd
        intro hm
        exact (List.nodup_append.1 hnd).2.2 s' hm s' (by simp) rfl
      · have e : path = (l ++ s :: mid) ++ (m :: s' :: r) := by rw [hsplit]; simp
        rw [e] at hnd
        rintro rfl
        simpa using (List.nodup_append.1 hnd).2.1
    have hm : m ≠ .none := by rintro rfl; exact hnn (by rw [hsplit]; simp)
    obtain ⟨t, w, st, h1, h2, h3, h4⟩ := C03_step hb hf hj hprev hm hd
    obtain ⟨t0, rt, h5, h6, h7⟩ := ih (s' := m) (r := s' :: r) (by rw [hsplit]; simp) h1
    refine ⟨t0, rt + w + st, h5, ?_, by linarith⟩
    have := RunTime.snoc h6 h2 h3
    simpa using this

/-- train 1 of the small instance: leaves A at 4 and B at 10 = 4 + 5 + 1 -/
example : ∃ b, buildProblem Small.ts Small.tt 10 .integer = .ok b ∧ Feasible b Small.σ ∧
    Departs Small.ts Small.tt b.dv Small.σ (.int 1) (.str "B") 10 ∧ .int 1 ∈ Small.ts.J ∧
    Dict.get? Small.ts.paths (.int 1) = some ([] ++ (.str "A" :: [] ++ [.str "B"]) ++ [.str "C"]) ∧
    RunTime Small.tt (.int 1) [.str "A", .str "B"] 6 := by
  obtain ⟨b, hb, hf⟩ := Small.feasible
  refine ⟨b, hb, hf, departs_of_check hb (by decide +kernel), by decide, by decide, ?_⟩
  have := RunTime.cons (tt := Small.tt) (j := .int 1) (s := .str "A") (s' := .str "B") (w := 5)
    (st := 1) (r := 0) (rest := []) (by unfold Pass; decide +kernel) (by unfold Stop; decide +kernel)
    (.one _)
  norm_num at this
  exact this

/-! ## C05 -/

/-- **C05.** A train does not start before its rolling stock has arrived and is prepared. -/
theorem C05_circulation (hb : buildProblem ts tt dmax cat = .ok b) (hn : NamesOK ts)
    (hf : Feasible b σ) {s : Val} {l : List (Val × Val)} (he : (s, l) ∈ ts.Jround) {j jp : Val}
    (hp : (j, jp) ∈ l) :
    ∃ p w pr, PrevOf ts j s p ∧ Pass tt j p s w ∧ Prep tt jp s pr ∧
      ∀ t tp, Departs ts tt b.dv σ j p t → Departs ts tt b.dv σ jp s tp → t + w + pr ≤ tp := by
  have P := parts hb
  have S := setting P hn hf.adm
  have hr := (circ_iff S P.o5).1 ((P.sat σ).1 hf.sat).2.2.2.2.1
  have ho := P.o5
  unfold rollingStockCirc at ho
  simp only [oks_collect] at ho
  obtain ⟨cs, h⟩ := ho _ he _ hp
  unfold circBody at h
  obtain ⟨path, hpath, h⟩ := bind_ok h
  obtain ⟨sp, hsp, h⟩ := bind_ok h
  obtain ⟨_, _, h⟩ := bind_ok h
  obtain ⟨_, _, h⟩ := bind_ok h
  obtain ⟨w, hw, h⟩ := bind_ok h
  obtain ⟨pr, hpr, h⟩ := bind_ok h
  have hprev : PrevOf ts j s sp := prevOf_iff.2 ⟨path, hpath, hsp⟩
  exact ⟨sp, w, pr, hprev, tauPass_ok.1 hw, tauPrep_ok.1 hpr, fun t tp ht htp =>
    hr _ he _ hp sp hprev t tp w pr ht htp (tauPass_ok.1 hw) (tauPrep_ok.1 hpr)⟩

/-- train 3 leaves B at 11, arrives at A at 16 and continues as train 4 at 18 -/
example : ∃ b, buildProblem Small.ts Small.tt 10 .integer = .ok b ∧ NamesOK Small.ts ∧
    Feasible b Small.σ ∧ (.str "A", [(.int 3, .int 4)]) ∈ Small.ts.Jround ∧
    Departs Small.ts Small.tt b.dv Small.σ (.int 3) (.str "B") 11 ∧
    Departs Small.ts Small.tt b.dv Small.σ (.int 4) (.str "A") 18 := by
  obtain ⟨b, hb, hf⟩ := Small.feasible
  exact ⟨b, hb, Small.namesOK, hf, by decide, departs_of_check hb (by decide +kernel),
    departs_of_check hb (by decide +kernel)⟩

end

end Verif
