import Verif.Proofs.Bridge

/-!
# Lemmas about `delay_varibles`
-/

namespace Verif

/-- one creation -/
def createDelay (dmax : ℚ) (cat : Cat) (d : DelayVars) (x : Val × Val) : Py DelayVars :=
  upd2 d x.1 x.2 (dVar x.1 x.2 dmax cat)

theorem createDelay_loop {dmax : ℚ} {cat : Cat} {L : List (Val × Val)} {d : DelayVars} :
    ((∃ d', loop L (createDelay dmax cat) d = .ok d') ↔
      (L.Nodup ∧ ∀ x ∈ L, find2 d x.1 x.2 = .none)) ∧
    (∀ d', loop L (createDelay dmax cat) d = .ok d' → ∀ j s, find2 d' j s =
      if (j, s) ∈ L then some (dVar j s dmax cat) else find2 d j s) ∧
    (∀ e, loop L (createDelay dmax cat) d = .error e → e = .attributeError) := by
  induction L generalizing d with
  | nil => simp [loop]
  | cons x L ih =>
    simp only [loop]
    by_cases hx : find2 d x.1 x.2 = .none
    · obtain ⟨d1, hd1⟩ := upd2_ok (v := dVar x.1 x.2 dmax cat) hx
      have hc : createDelay dmax cat d x = .ok d1 := hd1
      rw [hc]
      simp only
      have hf := find2_upd2 hd1
      obtain ⟨i1, i2, i3⟩ := ih (d := d1)
      refine ⟨?_, ?_, i3⟩
      · rw [i1, List.nodup_cons]
        constructor
        · rintro ⟨hnd, hall⟩
          have hxL : x ∉ L := fun hm => by
            have := hall x hm
            rw [hf] at this; simp at this
          refine ⟨⟨hxL, hnd⟩, ?_⟩
          intro z hz
          rcases List.mem_cons.1 hz with rfl | hz
          · exact hx
          · have := hall z hz
            rw [hf] at this
            split at this
            · cases this
            · exact this
        · rintro ⟨⟨hxL, hnd⟩, hall⟩
          refine ⟨hnd, fun z hz => ?_⟩
          rw [hf, if_neg]
          · exact hall z (List.mem_cons_of_mem _ hz)
          · rintro ⟨h1, h2⟩
            exact hxL ((Prod.ext h1 h2 : z = x) ▸ hz)
      · intro d' hd' j s
        rw [i2 d' hd' j s, hf]
        by_cases hm : (j, s) ∈ L
        · simp [hm]
        · by_cases hxe : j = x.1 ∧ s = x.2
          · obtain ⟨rfl, rfl⟩ := hxe
            simp
          · have : (j, s) ≠ x := fun h => hxe ⟨congrArg Prod.fst h, congrArg Prod.snd h⟩
            simp [hm, hxe, this]
    · have hc : createDelay dmax cat d x = .error .attributeError := upd2_err hx
      rw [hc]
      simp only [reduceCtorEq, exists_const, false_iff, not_and, IsEmpty.forall_iff, implies_true,
        Except.error.injEq, true_and]
      refine ⟨fun _ h => hx (h x List.mem_cons_self), fun _ h => h.symm⟩

/-- stations of a path where train `j` gets a delay variable -/
def needsDelay (ts : TrainSets) (j s : Val) : Bool :=
  !skipStation j s ts && decide (subsequentTrainAtJround ts j s = .none)

theorem delayBody_loop (ts : TrainSets) (dmax : ℚ) (cat : Cat) (j : Val) (path : List Val)
    (d : DelayVars) :
    loop path (delayBody ts dmax cat j) d =
      loop ((path.filter (needsDelay ts j)).map fun s => (j, s)) (createDelay dmax cat) d := by
  induction path generalizing d with
  | nil => rfl
  | cons s path ih =>
    simp only [loop, List.filter_cons]
    have : delayBody ts dmax cat j d s =
        if needsDelay ts j s then createDelay dmax cat d (j, s) else .ok d := by
      unfold delayBody needsDelay createDelay
      by_cases h1 : skipStation j s ts <;> by_cases h2 : subsequentTrainAtJround ts j s = .none <;>
        simp [h1, h2]
    rw [this]
    by_cases hn : needsDelay ts j s = true
    · simp only [hn, if_true, List.map_cons, loop]
      cases createDelay dmax cat d (j, s) with
      | error e => rfl
      | ok d' => exact ih d'
    · simp only [hn, Bool.false_eq_true, if_false]
      exact ih d

/-- all creations, in order -/
def delayRequests (ts : TrainSets) (J : List Val) : List (Val × Val) :=
  J.flatMap fun j => (((Dict.get? ts.paths j).getD []).filter (needsDelay ts j)).map fun s => (j, s)

theorem delayVariables_eq (ts : TrainSets) (dmax : ℚ) (cat : Cat) (J : List Val)
    (hJ : ∀ j ∈ J, (Dict.get? ts.paths j).isSome) (d : DelayVars) :
    loop J (fun d j => do
      let path ← Dict.at! ts.paths j
      loop path (delayBody ts dmax cat j) d) d
    = loop (delayRequests ts J) (createDelay dmax cat) d := by
  induction J generalizing d with
  | nil => rfl
  | cons j J ih =>
    obtain ⟨path, hp⟩ := Option.isSome_iff_exists.1 (hJ j List.mem_cons_self)
    simp only [loop, delayRequests, List.flatMap_cons, loop_append, hp, Option.getD_some]
    have h1 : (Dict.at! ts.paths j >>= fun path => loop path (delayBody ts dmax cat j) d)
        = loop ((path.filter (needsDelay ts j)).map fun s => (j, s)) (createDelay dmax cat) d := by
      rw [Dict.at!_ok.2 hp, ← delayBody_loop]; rfl
    rw [h1]
    cases loop ((path.filter (needsDelay ts j)).map fun s => (j, s)) (createDelay dmax cat) d with
    | error e => rfl
    | ok d' =>
      exact ih (fun j hj => hJ j (List.mem_cons_of_mem _ hj)) d'

theorem delayVariables_paths {ts : TrainSets} {dmax : ℚ} {cat : Cat} {dv : DelayVars}
    (h : delayVariables ts dmax cat = .ok dv) : ∀ j ∈ ts.J, (Dict.get? ts.paths j).isSome := by
  unfold delayVariables at h
  refine loop_each h (fun j _ => (Dict.get? ts.paths j).isSome) ?_ ?_
  · intro j _ a b hab
    obtain ⟨path, hp, _⟩ := bind_ok hab
    rw [Dict.at!_ok] at hp; simp [hp]
  · intro _ _ _ _ _ _ h _; exact h

theorem needsDelay_iff {ts : TrainSets} {j s : Val} :
    needsDelay ts j s = true ↔ ¬ Skips ts j s ∧ ∀ jp, ¬ ContinuedBy ts j s jp := by
  unfold needsDelay
  rw [Bool.and_eq_true, Bool.not_eq_true', ← Bool.not_eq_true, skipStation_iff, decide_eq_true_iff]
  refine and_congr_right fun _ => ?_
  simp only [continuedBy_iff, not_and, not_not]
  constructor
  · intro h jp h1; rw [← h1, h]
  · intro h; exact h _ rfl

theorem mem_delayRequests {ts : TrainSets} {j s : Val} :
    (j, s) ∈ delayRequests ts ts.J ↔ HasDelay ts j s := by
  unfold delayRequests HasDelay
  simp only [List.mem_flatMap, List.mem_map, Prod.mk.injEq, List.mem_filter]
  constructor
  · rintro ⟨j', hj, s', ⟨h1, h2⟩, rfl, rfl⟩
    rw [needsDelay_iff] at h2
    cases hp : Dict.get? ts.paths j' with
    | none => simp [hp] at h1
    | some path =>
      simp only [hp, Option.getD_some] at h1
      exact ⟨hj, ⟨path, rfl, h1⟩, h2⟩
  · rintro ⟨hj, ⟨path, hp, hs⟩, h2⟩
    refine ⟨j, hj, s, ⟨by simpa [hp] using hs, needsDelay_iff.2 h2⟩, rfl, rfl⟩

theorem delayVariables_find {ts : TrainSets} {dmax : ℚ} {cat : Cat} {dv : DelayVars}
    (h : delayVariables ts dmax cat = .ok dv) {j s : Val} {v : LpVar} :
    find2 dv j s = some v ↔ HasDelay ts j s ∧ v = dVar j s dmax cat := by
  have hp := delayVariables_paths h
  unfold delayVariables at h
  rw [delayVariables_eq ts dmax cat ts.J hp] at h
  rw [createDelay_loop.2.1 dv h]
  by_cases hm : (j, s) ∈ delayRequests ts ts.J
  · simp [hm, ← mem_delayRequests, eq_comm]
  · simp only [hm, if_false, ← mem_delayRequests, false_and, iff_false]
    simp [find2, Dict.get?]

theorem delayVariables_ok_iff {ts : TrainSets} {dmax : ℚ} {cat : Cat} :
    (∃ dv, delayVariables ts dmax cat = .ok dv) ↔
      (∀ j ∈ ts.J, (Dict.get? ts.paths j).isSome) ∧ (delayRequests ts ts.J).Nodup := by
  constructor
  · rintro ⟨dv, h⟩
    have hp := delayVariables_paths h
    refine ⟨hp, ?_⟩
    unfold delayVariables at h
    rw [delayVariables_eq ts dmax cat ts.J hp] at h
    exact (createDelay_loop.1.1 ⟨dv, h⟩).1
  · rintro ⟨hp, hnd⟩
    unfold delayVariables
    rw [delayVariables_eq ts dmax cat ts.J hp]
    exact createDelay_loop.1.2 ⟨hnd, fun x _ => by simp [find2, Dict.get?]⟩

/-- delays are within `[0, d_max]` -/
theorem delay_bounds {ts : TrainSets} {dmax : ℚ} {cat : Cat} {dv : DelayVars}
    (h : delayVariables ts dmax cat = .ok dv) {σ : LpVar → ℚ}
    (hdom : ∀ j s v, delayAt dv j s = .ok v → InDomain v (σ v)) {j s : Val} {v : LpVar}
    (hv : delayAt dv j s = .ok v) : 0 ≤ σ v ∧ σ v ≤ dmax := by
  obtain ⟨h1, h2, _⟩ := hdom _ _ _ hv
  rw [delayAt_ok, delayVariables_find h] at hv
  obtain ⟨_, rfl⟩ := hv
  exact ⟨h1, h2⟩

end Verif
