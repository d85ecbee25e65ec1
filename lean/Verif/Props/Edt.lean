import Verif.Props.Rules2

/-!
# Earliest departure times: C14, C15
-/

namespace Verif

variable {ts : TrainSets} {tt : Timetable} {j : Val}

/-- times `D` at which train `j` may leave the stations: not before the schedule and the initial
condition, and (unless an initial condition is given) not before it has run from the previous
station and stopped -/
structure MayLeave (ts : TrainSets) (tt : Timetable) (j : Val) (D : Val → ℚ) : Prop where
  schedule : ∀ s d x, tt.schedule = some d → Dict.get? d (key2 j s) = some x → x ≤ D s
  initial : ∀ s u, Dict.get? tt.initialConditions (key2 j s) = some u → u ≤ D s
  run : ∀ s p w st, Dict.get? tt.initialConditions (key2 j s) = .none → PrevOf ts j s p →
    Pass tt j p s w → Stop tt j s st → D p + w + st ≤ D s

theorem maxSched_le {tt : Timetable} {s : Val} {x z : ℚ}
    (h : ∀ d x, tt.schedule = some d → Dict.get? d (key2 j s) = some x → x ≤ z) (hx : x ≤ z) :
    maxSched (schedOf tt j s) x ≤ z := by
  unfold maxSched schedOf
  cases hs : tt.schedule with
  | none => exact hx
  | some d =>
    simp only
    cases hd : Dict.get? d (key2 j s) with
    | none => exact hx
    | some t => exact max_le (h d t hs hd) hx

theorem edtFuel_succ {S : Dict Val (List Val)} {n : Nat} {s : Val} {e : ℚ} :
    edtFuel S tt j (n + 1) s = .ok e ↔
      (∃ u, Dict.get? tt.initialConditions (key2 j s) = some u ∧
        e = maxSched (schedOf tt j s) u) ∨
      (Dict.get? tt.initialConditions (key2 j s) = .none ∧ ∃ path p w st ep,
        Dict.get? S j = some path ∧ PrevOn path s p ∧ Pass tt j p s w ∧ Stop tt j s st ∧
        edtFuel S tt j n p = .ok ep ∧ e = maxSched (schedOf tt j s) (ep + w + st)) := by
  rw [edtFuel]
  cases hu : Dict.get? tt.initialConditions (key2 j s) with
  | some u => simp [eq_comm]
  | none =>
    simp only [reduceCtorEq, false_and, exists_false, true_and, false_or]
    constructor
    · intro h
      obtain ⟨path, h1, h⟩ := bind_ok h
      obtain ⟨p, h2, h⟩ := bind_ok h
      obtain ⟨w, h3, h⟩ := bind_ok h
      obtain ⟨st, h4, h⟩ := bind_ok h
      obtain ⟨ep, h5, h⟩ := bind_ok h
      cases h
      exact ⟨path, p, w, st, ep, Dict.at!_ok.1 h1, previousStation_iff.1 h2, tauPass_ok.1 h3,
        tauStop_ok.1 h4, h5, rfl⟩
    · rintro ⟨path, p, w, st, ep, h1, h2, h3, h4, h5, rfl⟩
      simp only [Dict.at!_ok.2 h1, previousStation_iff.2 h2, tauPass_ok.2 h3, tauStop_ok.2 h4, h5,
        bind, Except.bind]

theorem edtFuel_mono {S : Dict Val (List Val)} {n : Nat} {s : Val} {e : ℚ}
    (h : edtFuel S tt j n s = .ok e) : edtFuel S tt j (n + 1) s = .ok e := by
  induction n generalizing s e with
  | zero => cases h
  | succ n ih =>
    rw [edtFuel_succ] at h ⊢
    rcases h with h | ⟨h0, path, p, w, st, ep, h1, h2, h3, h4, h5, h6⟩
    · exact .inl h
    · exact .inr ⟨h0, path, p, w, st, ep, h1, h2, h3, h4, ih h5, h6⟩

theorem edtFuel_mono_le {S : Dict Val (List Val)} {n m : Nat} (hnm : n ≤ m) {s : Val} {e : ℚ}
    (h : edtFuel S tt j n s = .ok e) : edtFuel S tt j m s = .ok e := by
  induction hnm with
  | refl => exact h
  | step _ ih => exact edtFuel_mono ih

/-- the recursion only goes back along the path -/
theorem edtFuel_enough {S : Dict Val (List Val)} {path : List Val} (hp : Dict.get? S j = some path)
    (hnone : Val.none ∉ path) {n : Nat} {s : Val} {e : ℚ} (h : edtFuel S tt j n s = .ok e) :
    (∀ l r, path = l ++ s :: r → s ∉ l → edtFuel S tt j (l.length + 2) s = .ok e) ∧
    (s ∉ path → edtFuel S tt j 1 s = .ok e) := by
  induction n generalizing s e with
  | zero => cases h
  | succ n ih =>
    rw [edtFuel_succ] at h
    constructor
    · intro l r hl hsl
      rw [edtFuel_succ]
      rcases h with h | ⟨h0, path', p, w, st, ep, h1, h2, h3, h4, h5, h6⟩
      · exact .inl h
      · rw [hp] at h1; cases h1
        refine .inr ⟨h0, path, p, w, st, ep, hp, h2, h3, h4, ?_, h6⟩
        rcases h2 with ⟨l', r', he, hs', hne⟩ | ⟨r', he, rfl⟩
        · have : l = l' ++ [p] := by
            rw [hl] at he
            have he' : l ++ s :: r = (l' ++ [p]) ++ s :: r' := by simp [he]
            exact (List.append_eq_append_iff.1 he').elim
              (fun ⟨c, hc, hc'⟩ => by
                cases c with
                | nil => simpa using hc.symm
                | cons x c =>
                  simp only [List.cons_append, List.cons.injEq] at hc'
                  obtain ⟨rfl, _⟩ := hc'
                  exfalso
                  have : s ∈ l' ++ [p] := by rw [hc]; simp
                  simp only [List.mem_append, List.mem_singleton] at this
                  rcases this with h | h
                  · exact hs' h
                  · exact hne h.symm)
              (fun ⟨c, hc, hc'⟩ => by
                cases c with
                | nil => simpa using hc
                | cons x c =>
                  simp only [List.cons_append, List.cons.injEq] at hc'
                  obtain ⟨rfl, _⟩ := hc'
                  exact absurd (by rw [hc]; simp) hsl)
          subst this
          have hpm : p ∈ path := by rw [hl]; simp
          obtain ⟨k, hk⟩ := index_mem.2 hpm
          obtain ⟨a, b, hab, hpa, rfl⟩ := index_ok.1 hk
          refine edtFuel_mono_le ?_ ((ih h5).1 a b hab hpa)
          have : a.length ≤ l'.length := by
            by_contra hlt
            push Not at hlt
            have hg : path[l'.length]? = some p := by
              rw [hl]; simp
            rw [hab, List.getElem?_append_left hlt] at hg
            exact hpa (List.mem_of_getElem? hg)
          simp only [List.length_append, List.length_cons, List.length_nil]
          omega
        · exact edtFuel_mono_le (by omega) ((ih h5).2 hnone)
    · intro hs
      rw [edtFuel_succ]
      rcases h with h | ⟨h0, path', p, w, st, ep, h1, h2, _⟩
      · exact .inl h
      · rw [hp] at h1; cases h1
        exfalso
        rcases h2 with ⟨l', r', he, _, _⟩ | ⟨r', he, _⟩ <;> exact hs (by rw [he]; simp)

/-- `earliest_dep_time` satisfies its recursive equation -/
theorem edt_unfold {path : List Val} (hp : Dict.get? ts.paths j = some path)
    (hnone : Val.none ∉ path) {s : Val} {e : ℚ} :
    earliestDepTime ts.paths tt j s = .ok e ↔
      (∃ u, Dict.get? tt.initialConditions (key2 j s) = some u ∧
        e = maxSched (schedOf tt j s) u) ∨
      (Dict.get? tt.initialConditions (key2 j s) = .none ∧ ∃ p w st ep,
        PrevOf ts j s p ∧ Pass tt j p s w ∧ Stop tt j s st ∧
        earliestDepTime ts.paths tt j p = .ok ep ∧ e = maxSched (schedOf tt j s) (ep + w + st)) := by
  unfold earliestDepTime
  rw [hp]
  simp only [Option.getD_some]
  rw [edtFuel_succ]
  constructor
  · rintro (h | ⟨h0, path', p, w, st, ep, h1, h2, h3, h4, h5, h6⟩)
    · exact .inl h
    · exact .inr ⟨h0, p, w, st, ep, ⟨path', h1, h2⟩, h3, h4, edtFuel_mono h5, h6⟩
  · rintro (h | ⟨h0, p, w, st, ep, ⟨path', h1, h2⟩, h3, h4, h5, h6⟩)
    · exact .inl h
    · refine .inr ⟨h0, path', p, w, st, ep, h1, h2, h3, h4, ?_, h6⟩
      rw [hp] at h1; cases h1
      by_cases hm : p ∈ path
      · obtain ⟨k, hk⟩ := index_mem.2 hm
        obtain ⟨a, b, hab, hpa, rfl⟩ := index_ok.1 hk
        refine edtFuel_mono_le ?_ ((edtFuel_enough hp hnone h5).1 a b hab hpa)
        rw [hab]; simp only [List.length_append, List.length_cons]; omega
      · exact edtFuel_mono_le (by omega) ((edtFuel_enough hp hnone h5).2 hm)

/-! ## C14 -/

/-- **C14.** The earliest departure times are possible departure times: they respect schedule,
initial condition and running times. -/
theorem C14_possible {s : Val} {e : ℚ} (h : earliestDepTime ts.paths tt j s = .ok e) :
    (∀ d x, tt.schedule = some d → Dict.get? d (key2 j s) = some x → x ≤ e) ∧
    (∀ u, Dict.get? tt.initialConditions (key2 j s) = some u → u ≤ e) ∧
    (Dict.get? tt.initialConditions (key2 j s) = .none → ∃ p w st ep, PrevOf ts j s p ∧
      Pass tt j p s w ∧ Stop tt j s st ∧ earliestDepTime ts.paths tt j p = .ok ep ∧
      ep + w + st ≤ e) := by
  refine ⟨(edt_ge h).1, (edt_ge h).2, fun h0 => ?_⟩
  unfold earliestDepTime at h ⊢
  rw [edtFuel_succ] at h
  rcases h with ⟨u, hu, _⟩ | ⟨_, path, p, w, st, ep, h1, h2, h3, h4, h5, rfl⟩
  · rw [hu] at h0; cases h0
  · refine ⟨p, w, st, ep, ⟨path, h1, h2⟩, h3, h4, edtFuel_mono h5, ?_⟩
    unfold maxSched
    split
    · exact le_max_right _ _
    · exact le_refl _

/-- **C14.** They are the least such times. -/
theorem C14_least {s : Val} {e : ℚ} (h : earliestDepTime ts.paths tt j s = .ok e) {D : Val → ℚ}
    (hD : MayLeave ts tt j D) : e ≤ D s := by
  unfold earliestDepTime at h
  generalize (((Dict.get? ts.paths j).getD []).length + 2) = n at h
  induction n generalizing s e with
  | zero => cases h
  | succ n ih =>
    rw [edtFuel_succ] at h
    rcases h with ⟨u, hu, rfl⟩ | ⟨h0, path, p, w, st, ep, h1, h2, h3, h4, h5, rfl⟩
    · exact maxSched_le (hD.schedule s) (hD.initial s u hu)
    · refine maxSched_le (hD.schedule s) ?_
      have := ih h5
      have := hD.run s p w st h0 ⟨path, h1, h2⟩ h3 h4
      linarith

/-- running and stop times are tabulated between the listed stations -/
def Tabulated (tt : Timetable) (j : Val) : List Val → Prop
  | [] => True
  | [_] => True
  | p :: s :: rest => (∃ w, Pass tt j p s w) ∧ (∃ st, Stop tt j s st) ∧ Tabulated tt j (s :: rest)

/-- **C14.** They exist from the first station with an initial condition on, as long as the running
and stop times are tabulated. -/
theorem C14_exists {l mid r : List Val} {s0 : Val}
    (hp : Dict.get? ts.paths j = some (l ++ s0 :: mid ++ r)) (hnd : (l ++ s0 :: mid ++ r).Nodup)
    (hnone : Val.none ∉ l ++ s0 :: mid ++ r)
    (hu : ∃ u, Dict.get? tt.initialConditions (key2 j s0) = some u)
    (ht : Tabulated tt j (s0 :: mid)) :
    ∀ s ∈ s0 :: mid, ∃ e, earliestDepTime ts.paths tt j s = .ok e := by
  have key : ∀ (mid l : List Val) (s0 : Val), Dict.get? ts.paths j = some (l ++ s0 :: mid ++ r) →
      (l ++ s0 :: mid ++ r).Nodup → Val.none ∉ l ++ s0 :: mid ++ r →
      (∃ e, earliestDepTime ts.paths tt j s0 = .ok e) → Tabulated tt j (s0 :: mid) →
      ∀ s ∈ s0 :: mid, ∃ e, earliestDepTime ts.paths tt j s = .ok e := by
    intro mid
    induction mid with
    | nil =>
      intro l s0 _ _ _ he _ s hs
      simp only [List.mem_singleton] at hs; subst hs; exact he
    | cons s1 mid ih =>
      intro l s0 hp hnd hnone ⟨e0, he⟩ ht s hs
      rcases List.mem_cons.1 hs with rfl | hs
      · exact ⟨e0, he⟩
      obtain ⟨⟨w, hw⟩, ⟨st, hst⟩, ht'⟩ := ht
      have hap : l ++ s0 :: (s1 :: mid) ++ r = (l ++ [s0]) ++ s1 :: mid ++ r := by simp
      refine ih (l ++ [s0]) s1 (hap ▸ hp) (hap ▸ hnd) (hap ▸ hnone) ?_ ht' s hs
      cases hu : Dict.get? tt.initialConditions (key2 j s1) with
      | some u => exact ⟨_, (edt_unfold hp hnone).2 (.inl ⟨u, hu, rfl⟩)⟩
      | none =>
        refine ⟨_, (edt_unfold hp hnone).2 (.inr ⟨hu, s0, w, st, e0, ⟨_, hp, .inl ⟨l, mid ++ r,
          by simp, ?_, ?_⟩⟩, hw, hst, he, rfl⟩)⟩
        · intro hm
          have := List.nodup_append.1 (by simpa using hnd : (l ++ (s0 :: s1 :: (mid ++ r))).Nodup)
          exact this.2.2 s1 hm s1 (by simp) rfl
        · rintro rfl
          have := List.nodup_append.1 (by simpa using hnd : (l ++ (s0 :: s0 :: (mid ++ r))).Nodup)
          have := (List.nodup_cons.1 this.2.1).1
          exact this (by simp)
  obtain ⟨u, hu⟩ := hu
  exact key mid l s0 hp hnd hnone ⟨_, (edt_unfold hp hnone).2 (.inl ⟨u, hu, rfl⟩)⟩ ht

/-- the hypotheses of C14 are met by train 1 of the small example at B (schedule 6, running time 5
and stop 1 after the initial condition 4 at A) -/
example : earliestDepTime Small.ts.paths Small.tt (.int 1) (.str "B") = .ok 10 ∧
    MayLeave Small.ts Small.tt (.int 1)
      (fun s => if s = .str "A" then 10 else if s = .str "B" then 16 else 30) ∧
    Tabulated Small.tt (.int 1) [.str "A", .str "B"] := by
  refine ⟨by decide +kernel, ⟨?_, ?_, ?_⟩, ?_⟩
  · intro s d x hd hx
    cases hd
    have := Dict.mem_of_get? hx
    simp only [List.mem_cons, Prod.mk.injEq, List.not_mem_nil, or_false] at this
    rcases this with h | h | h | h | h <;>
      · obtain ⟨_, rfl⟩ := h
        split
        · norm_num
        · split <;> norm_num
  · intro s x hx
    have := Dict.mem_of_get? hx
    simp only [Small.tt, List.mem_cons, Prod.mk.injEq, List.not_mem_nil, or_false] at this
    rcases this with h | h | h | h <;>
      · obtain ⟨_, rfl⟩ := h
        split
        · norm_num
        · split <;> norm_num
  · intro s p w st _ ⟨path, h1, h2⟩ h3 h4
    have : path = [.str "A", .str "B", .str "C"] := by
      have := h1.symm.trans (by decide : Dict.get? Small.ts.paths (.int 1)
        = some [.str "A", .str "B", .str "C"])
      exact Option.some.inj this
    subst this
    rw [← previousStation_iff] at h2
    by_cases hA : s = .str "A"
    · subst hA
      have : p = .none := (Except.ok.inj (h2.symm.trans (by decide : previousStation
        [.str "A", .str "B", .str "C"] (.str "A") = .ok .none)))
      subst this
      have := h3.symm.trans (by decide +kernel : Dict.get? Small.tt.tauPass
        (key3 (.int 1) .none (.str "A")) = .none)
      cases this
    by_cases hB : s = .str "B"
    · subst hB
      have : p = .str "A" := (Except.ok.inj (h2.symm.trans (by decide : previousStation
        [.str "A", .str "B", .str "C"] (.str "B") = .ok (.str "A"))))
      subst this
      have := Option.some.inj (h3.symm.trans (by decide +kernel : Dict.get? Small.tt.tauPass
        (key3 (.int 1) (.str "A") (.str "B")) = some 5))
      subst this
      have := Option.some.inj (h4.symm.trans (by decide +kernel : Dict.get? Small.tt.tauStop
        (key2 (.int 1) (.str "B")) = some 1))
      subst this
      rw [if_pos rfl, if_neg (by decide), if_pos rfl]
      norm_num
    by_cases hC : s = .str "C"
    · subst hC
      have := h4.symm.trans (by decide +kernel : Dict.get? Small.tt.tauStop
        (key2 (.int 1) (.str "C")) = .none)
      cases this
    · exfalso
      rw [previousStation_iff] at h2
      rcases h2 with ⟨l, r, he, _, _⟩ | ⟨r, he, _⟩
      · have : s ∈ [Val.str "A", .str "B", .str "C"] := by rw [he]; simp
        simp [hA, hB, hC] at this
      · have : s ∈ [Val.str "A", .str "B", .str "C"] := by rw [he]; simp
        simp [hA, hB, hC] at this
  · exact ⟨⟨5, by unfold Pass; decide +kernel⟩, ⟨1, by unfold Stop; decide +kernel⟩, trivial⟩

/-! ## C15 -/

/-- both calls fail in the same way, or the second result exceeds the first by at most `D` -/
def Raised (D : ℚ) (r r' : Py ℚ) : Prop :=
  (∃ x, r = .error x ∧ r' = .error x) ∨ ∃ e e', r = .ok e ∧ r' = .ok e' ∧ e ≤ e' ∧ e' ≤ e + D

theorem maxSched_raised {o : Option ℚ} {D x x' : ℚ} (hD : 0 ≤ D) (h : x ≤ x' ∧ x' ≤ x + D) :
    maxSched o x ≤ maxSched o x' ∧ maxSched o x' ≤ maxSched o x + D := by
  unfold maxSched
  cases o with
  | none => exact h
  | some t =>
    refine ⟨max_le_max (le_refl _) h.1, max_le ?_ ?_⟩
    · have := le_max_left t x
      simp only
      linarith
    · have := le_max_right t x
      simp only
      linarith [h.2]

/-- **C15.** If the initial conditions of train `j` are raised by amounts between 0 and `D`, every
earliest departure of `j` is raised by an amount between 0 and `D`. With `D = 0`: trains whose
initial conditions are unchanged are unaffected. -/
theorem C15_lipschitz {ic' : Dict String ℚ} {D : ℚ} (hD0 : 0 ≤ D)
    (hsame : ∀ s, (Dict.get? tt.initialConditions (key2 j s) = .none ↔
      Dict.get? ic' (key2 j s) = .none))
    (hraise : ∀ s u u', Dict.get? tt.initialConditions (key2 j s) = some u →
      Dict.get? ic' (key2 j s) = some u' → u ≤ u' ∧ u' ≤ u + D) (s : Val) :
    Raised D (earliestDepTime ts.paths tt j s)
      (earliestDepTime ts.paths { tt with initialConditions := ic' } j s) := by
  unfold earliestDepTime
  generalize (((Dict.get? ts.paths j).getD []).length + 2) = n
  induction n generalizing s with
  | zero => exact .inl ⟨_, rfl, rfl⟩
  | succ n ih =>
    rw [edtFuel, edtFuel]
    cases hu : Dict.get? tt.initialConditions (key2 j s) with
    | some u =>
      cases hu' : Dict.get? ic' (key2 j s) with
      | none => rw [(hsame s).2 hu'] at hu; cases hu
      | some u' => exact .inr ⟨_, _, rfl, rfl, maxSched_raised hD0 (hraise s u u' hu hu')⟩
    | none =>
      simp only [(hsame s).1 hu]
      cases Dict.at! ts.paths j with
      | error x => exact .inl ⟨x, rfl, rfl⟩
      | ok path =>
        simp only [bind, Except.bind]
        cases previousStation path s with
        | error x => exact .inl ⟨x, rfl, rfl⟩
        | ok p =>
          simp only [tauPass, tauStop]
          cases Dict.at! tt.tauPass (key3 j p s) with
          | error x => exact .inl ⟨x, rfl, rfl⟩
          | ok w =>
            cases Dict.at! tt.tauStop (key2 j s) with
            | error x => exact .inl ⟨x, rfl, rfl⟩
            | ok st =>
              simp only
              rcases ih p with ⟨x, h1, h2⟩ | ⟨e, e', h1, h2, h3, h4⟩
              · rw [h1, h2]; exact .inl ⟨x, rfl, rfl⟩
              · rw [h1, h2]
                exact .inr ⟨_, _, rfl, rfl, maxSched_raised hD0 ⟨by linarith, by linarith⟩⟩

/-- train 1 of the small example enters five minutes later and leaves B five minutes later, train 2
is unaffected -/
example : Raised 5 (earliestDepTime Small.ts.paths Small.tt (.int 1) (.str "B"))
      (earliestDepTime Small.ts.paths { Small.tt with initialConditions :=
        [("1_A", 9), ("2_A", 2), ("3_B", 3), ("4_A", 10)] } (.int 1) (.str "B")) ∧
    Raised 0 (earliestDepTime Small.ts.paths Small.tt (.int 2) (.str "B"))
      (earliestDepTime Small.ts.paths { Small.tt with initialConditions :=
        [("1_A", 9), ("2_A", 2), ("3_B", 3), ("4_A", 10)] } (.int 2) (.str "B")) := by
  have key : ∀ (j s : Val), (Dict.get? Small.tt.initialConditions (key2 j s) = .none ↔
      Dict.get? [("1_A", (9 : ℚ)), ("2_A", 2), ("3_B", 3), ("4_A", 10)] (key2 j s) = .none) := by
    intro j s
    simp only [Small.tt, Dict.get?]
    repeat' split
    all_goals simp
  refine ⟨C15_lipschitz (by norm_num) (key _) ?_ _, C15_lipschitz (le_refl _) (key _) ?_ _⟩
  · intro s u u' h h'
    simp only [Small.tt, Dict.get?] at h h'
    repeat' split at h
    all_goals simp_all
    all_goals subst h h'; norm_num
  · intro s u u' h h'
    simp only [Small.tt, Dict.get?] at h h'
    have h1 : "1_A" ≠ key2 (.int 2) s := by
      intro hc
      have := congrArg (fun t => t.toList.head?) hc
      have h2 : (Int.repr 2).toList = ['2'] := by decide
      simp [key2, Val.render, h2] at this
    rw [if_neg h1] at h h'
    rw [h] at h'; cases h'
    constructor <;> linarith

end Verif
