import Verif.Proofs.Complete
import Verif.Spec.Objective

/-!
# Evaluation of the objective
-/

namespace Verif

theorem penaltyWeights_eq (tt : Timetable) (j s : Val) : penaltyWeights tt j s = Weight tt j s := by
  unfold penaltyWeights Weight; split <;> rename_i h <;> simp [h]

theorem eval_foldl_add (σ : LpVar → ℚ) (l : List LinExpr) (e : LinExpr) :
    (l.foldl LinExpr.add e).eval σ = e.eval σ + (l.map fun x => x.eval σ).sum := by
  induction l generalizing e with
  | nil => simp
  | cons x l ih => simp only [List.foldl_cons, ih, LinExpr.eval_add, List.map_cons, List.sum_cons]; ring

/-- sum of the values of collected expressions -/
theorem collect_sum {α : Type} {xs : List α} {f : α → Py (List LinExpr)} {r : List LinExpr}
    (h : collect xs f = .ok r) (σ : LpVar → ℚ) (g : α → ℚ)
    (hg : ∀ x ∈ xs, ∀ a, f x = .ok a → (a.map fun e => e.eval σ).sum = g x) :
    (r.map fun e => e.eval σ).sum = (xs.map g).sum := by
  induction xs generalizing r with
  | nil => simp only [collect, Except.ok.injEq] at h; subst h; simp
  | cons x xs ih =>
    simp only [collect] at h
    split at h
    · cases h
    · rename_i a ha
      split at h
      · cases h
      · rename_i b hb
        cases h
        rw [List.map_append, List.sum_append, List.map_cons, List.sum_cons,
          hg x List.mem_cons_self a ha, ih hb fun x hx => hg x (List.mem_cons_of_mem _ hx)]

theorem objectiveTerms_sum {ts : TrainSets} {tt : Timetable} {dv : DelayVars} {dmax : ℚ}
    {l : List LinExpr} (h : objectiveTerms tt dv ts dmax = .ok l) {σ : LpVar → ℚ}
    {d : Val → Val → ℚ} (hd : Delays dv σ d) :
    (l.map fun e => e.eval σ).sum = TotalDelay ts tt d / dmax := by
  unfold objectiveTerms at h
  have h1 := collect_sum h σ (fun j => ((((Dict.get? ts.paths j).getD []).map fun s =>
    Weight tt j s * d j s / dmax)).sum) ?_
  · rw [h1]
    unfold TotalDelay Calls
    generalize ts.J = J
    induction J with
    | nil => simp
    | cons j J ih =>
      simp only [List.map_cons, List.sum_cons, List.flatMap_cons, List.map_append, List.sum_append,
        add_div, ih, List.map_map]
      congr 1
      generalize (Dict.get? ts.paths j).getD [] = path
      induction path with
      | nil => simp
      | cons s path ih => simp only [List.map_cons, List.sum_cons, add_div, ih]; rfl
  · intro j _ a ha
    obtain ⟨path, hp, ha⟩ := bind_ok ha
    rw [Dict.at!_ok] at hp
    simp only [hp, Option.getD_some]
    refine collect_sum ha σ (fun s => Weight tt j s * d j s / dmax) ?_
    intro s _ a ha
    simp only [penaltyWeights_eq] at ha
    split at ha
    · obtain ⟨v, hv, ha⟩ := bind_ok ha
      split at ha
      · cases ha
      · cases ha
        simp only [List.map_cons, LinExpr.eval_smul, LinExpr.eval_var, List.map_nil, List.sum_cons,
          List.sum_nil, (hd j s).1 v hv]
        ring
    · rename_i h0
      cases ha
      simp only [not_not, ne_eq] at h0
      simp [h0]

theorem mem_calls {ts : TrainSets} {j s : Val} : (j, s) ∈ Calls ts ↔
    j ∈ ts.J ∧ ∃ path, Dict.get? ts.paths j = some path ∧ s ∈ path := by
  unfold Calls
  simp only [List.mem_flatMap, List.mem_map, Prod.mk.injEq]
  constructor
  · rintro ⟨j', hj, s', hs, rfl, rfl⟩
    refine ⟨hj, ?_⟩
    cases hp : Dict.get? ts.paths j' with
    | none => simp [hp] at hs
    | some path => exact ⟨path, rfl, by simpa [hp] using hs⟩
  · rintro ⟨hj, path, hp, hs⟩
    exact ⟨j, hj, s, by simpa [hp] using hs, rfl, rfl⟩

theorem objectiveTerms_ok {ts : TrainSets} {tt : Timetable} {dv : DelayVars} {dmax : ℚ}
    {l : List LinExpr} (h : objectiveTerms tt dv ts dmax = .ok l) {j s : Val}
    (hc : (j, s) ∈ Calls ts) (hw : Weight tt j s ≠ 0) :
    ∃ v, delayAt dv j s = .ok v ∧ dmax ≠ 0 ∧
      LinExpr.smul (1 / dmax) (.smul (Weight tt j s) (.var v)) ∈ l := by
  obtain ⟨hj, path, hp, hs⟩ := mem_calls.1 hc
  unfold objectiveTerms at h
  obtain ⟨a, ha, hsub⟩ := (collect_ok h).1 j hj
  obtain ⟨path', hp', ha⟩ := bind_ok ha
  rw [Dict.at!_ok, hp] at hp'
  cases hp'
  obtain ⟨a', ha', hsub'⟩ := (collect_ok ha).1 s hs
  simp only [penaltyWeights_eq, ne_eq, hw, not_false_eq_true, if_true] at ha'
  obtain ⟨v, hv, ha'⟩ := bind_ok ha'
  split at ha'
  · cases ha'
  · rename_i h0
    cases ha'
    exact ⟨v, hv, h0, hsub _ (hsub' _ (by simp))⟩

theorem delays_exist (dv : DelayVars) (σ : LpVar → ℚ) : ∃ d, Delays dv σ d := by
  refine ⟨fun j s => match delayAt dv j s with | .ok v => σ v | .error _ => 0, fun j s => ⟨?_, ?_⟩⟩
  · intro v hv; simp [hv]
  · intro h
    cases hx : delayAt dv j s with
    | ok v => exact absurd hx (h v)
    | error e => simp [hx]

end Verif
