import Verif.Props.Order
import Mathlib.Data.List.Count
import Mathlib.Data.List.Nodup

/-!
# Delay variables: C16
-/

namespace Verif

variable {ts : TrainSets} {tt : Timetable} {dmax : ℚ} {cat : Cat} {dv : DelayVars}

/-- **C16.** A delay variable for `(j, s)` exists exactly if train `j` calls at `s` and is not
continued there by another train; its bounds are `0` and `d_max`. Different pairs have different
variables. -/
theorem C16_exactly (h : delayVariables ts dmax cat = .ok dv) :
    (∀ j s, (∃ v, delayAt dv j s = .ok v) ↔ HasDelay ts j s) ∧
    (∀ j s v, delayAt dv j s = .ok v → v.low = 0 ∧ v.up = dmax ∧ v.cat = cat) ∧
    (∀ j s jp sp v, delayAt dv j s = .ok v → delayAt dv jp sp = .ok v → j = jp ∧ s = sp) := by
  refine ⟨fun j s => ?_, fun j s v hv => ?_, fun j s jp sp v hv hv' => ?_⟩
  · simp only [delayAt_ok, delayVariables_find h]
    exact ⟨fun ⟨_, h, _⟩ => h, fun h => ⟨_, h, rfl⟩⟩
  · rw [delayAt_ok, delayVariables_find h] at hv
    obtain ⟨_, rfl⟩ := hv
    exact ⟨rfl, rfl, rfl⟩
  · rw [delayAt_ok, delayVariables_find h] at hv hv'
    obtain ⟨_, rfl⟩ := hv
    obtain ⟨_, h2⟩ := hv'
    have := congrArg LpVar.vid h2
    simpa [dVar] using this

theorem count_requests (ts : TrainSets) (J : List Val) (j s : Val) :
    (delayRequests ts J).count (j, s) =
      J.count j * (((Dict.get? ts.paths j).getD []).filter (needsDelay ts j)).count s := by
  induction J with
  | nil => simp [delayRequests]
  | cons k J ih =>
    have hd : delayRequests ts (k :: J) =
        (((Dict.get? ts.paths k).getD []).filter (needsDelay ts k)).map (fun s => (k, s)) ++
          delayRequests ts J := rfl
    rw [hd, List.count_append, ih, List.count_cons]
    by_cases hk : k = j
    · subst hk
      rw [List.count_map_of_injective _ _ (fun a b h => (Prod.mk.inj h).2)]
      simp only [beq_self_eq_true, if_true]
      ring
    · rw [List.count_eq_zero.2]
      · simp [hk]
      · intro h
        rw [List.mem_map] at h
        obtain ⟨_, _, h⟩ := h
        exact hk (Prod.mk.inj h).1

theorem nodup_requests {ts : TrainSets} {J : List Val} :
    (delayRequests ts J).Nodup ↔ ∀ j ∈ J, ∀ path, Dict.get? ts.paths j = some path → ∀ s ∈ path,
      needsDelay ts j s = true → J.count j = 1 ∧ path.count s = 1 := by
  rw [List.nodup_iff_count_le_one]
  constructor
  · intro h j hj path hp s hs hn
    have h1 := h (j, s)
    rw [count_requests, hp, Option.getD_some, List.count_filter hn] at h1
    have h2 := List.count_pos_iff.2 hj
    have h3 := List.count_pos_iff.2 hs
    constructor <;> nlinarith
  · rintro h ⟨j, s⟩
    rw [count_requests]
    by_cases hj : j ∈ J
    · cases hp : Dict.get? ts.paths j with
      | none => simp
      | some path =>
        simp only [Option.getD_some]
        by_cases hn : needsDelay ts j s = true
        · by_cases hs : s ∈ path
          · obtain ⟨h1, h2⟩ := h j hj path hp s hs hn
            rw [List.count_filter hn, h1, h2]
          · rw [List.count_filter hn, List.count_eq_zero.2 hs]; simp
        · have : (path.filter (needsDelay ts j)).count s = 0 := List.count_eq_zero.2 (by simp [hn])
          rw [this]; simp
    · rw [List.count_eq_zero.2 hj]; simp

/-- **C16.** The function succeeds exactly if no variable would be created twice, and raises
`AttributeError` otherwise (`KeyError` for a train without path). -/
theorem C16_once (ts : TrainSets) (dmax : ℚ) (cat : Cat)
    (hp : ∀ j ∈ ts.J, ∃ path, Dict.get? ts.paths j = some path) :
    ((∃ dv, delayVariables ts dmax cat = .ok dv) ↔
      ∀ j s path, HasDelay ts j s → Dict.get? ts.paths j = some path →
        ts.J.count j = 1 ∧ path.count s = 1) ∧
    (∀ e, delayVariables ts dmax cat = .error e → e = .attributeError) := by
  have hp' : ∀ j ∈ ts.J, (Dict.get? ts.paths j).isSome := fun j hj => by
    obtain ⟨path, h⟩ := hp j hj; simp [h]
  refine ⟨?_, ?_⟩
  · rw [delayVariables_ok_iff, nodup_requests]
    constructor
    · rintro ⟨_, h⟩ j s path ⟨hj, ⟨path', hp1, hs⟩, h3⟩ hp2
      rw [hp2] at hp1; cases hp1
      exact h j hj path hp2 s hs (needsDelay_iff.2 h3)
    · intro h
      refine ⟨hp', fun j hj path hpa s hs hnd => ?_⟩
      exact h j s path ⟨hj, ⟨path, hpa, hs⟩, needsDelay_iff.1 hnd⟩ hpa
  · intro e he
    unfold delayVariables at he
    rw [delayVariables_eq ts dmax cat ts.J hp'] at he
    exact createDelay_loop.2.2 e he

/-- the hypotheses are met: in the small example train 1 has a variable at A and none at the skipped
station C; listing train 1 twice makes the function raise -/
example : (∃ dv v, delayVariables Small.ts 10 .integer = .ok dv ∧
      delayAt dv (.int 1) (.str "A") = .ok v) ∧
    ¬ HasDelay Small.ts (.int 1) (.str "C") ∧
    delayVariables { Small.ts with J := [.int 1, .int 1] } 10 .integer = .error .attributeError := by
  refine ⟨?_, ?_, by decide +kernel⟩
  · obtain ⟨b, hb, _⟩ := Small.feasible
    obtain ⟨v, hv⟩ := ((C16_exactly (parts hb).hdv).1 (.int 1) (.str "A")).2 (by
      rw [← mem_delayRequests]; decide +kernel)
    exact ⟨b.dv, v, (parts hb).hdv, hv⟩
  · rw [← mem_delayRequests]; decide +kernel

end Verif
