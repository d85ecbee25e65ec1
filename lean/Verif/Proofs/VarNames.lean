import Verif.Proofs.Origin
import Verif.Model.Report
import Verif.Props.Keys

/-!
# The variables of a problem and their names
-/

namespace Verif

variable {ts : TrainSets} {tt : Timetable} {dmax : ℚ} {cat : Cat} {b : Built}

/-- the variable stored at a place of the order dictionary -/
def IsYZ (p : OPath) (v : LpVar) : Prop :=
  (p.2.2.1 = oneStation ∧ v = yVar p.1 p.2.1 p.2.2.2) ∨ v = zVar p.1 p.2.1 p.2.2.1 p.2.2.2

theorem orderVariables_isYZ {y : OrderVars} (h : orderVariables ts = .ok y)
    {a b c d : Val} {v : LpVar} (hv : at4 y a b c d = .ok v) : IsYZ (a, b, c, d) v := by
  have key : ∀ {T U : Val → Prop} {y : OrderVars}, Steps T U [] y →
      ∀ p v, findP y p = some v → IsYZ p v := by
    intro T U y h
    generalize hy0 : ([] : OrderVars) = y0 at h
    induction h with
    | refl => subst hy0; intro p v hp; cases hp
    | @step y' y'' p q v h1 hr ha ih =>
      intro r w hw
      obtain ⟨y3, h3, h4⟩ := addOrder_spec y' p q v
      rw [ha] at h3; cases h3
      rcases h4 with ⟨rfl, _⟩ | ⟨_, _, hall⟩
      · exact ih r w hw
      · rw [hall] at hw
        split at hw
        · rename_i heq; subst heq; cases hw
          cases hr
          · exact .inl ⟨rfl, rfl⟩
          · exact .inr rfl
          · exact .inr rfl
        · exact ih r w hw
  rw [at4_ok] at hv
  exact key (orderVariables_steps (namesTrue ts) h) (a, b, c, d) v hv

theorem objective_uses {dv : DelayVars} {y : OrderVars} {e : LinExpr}
    (h : objective tt dv ts dmax = .ok e) : UsesOnly (Stored dv y) e := by
  unfold objective at h
  obtain ⟨l, hl, h⟩ := bind_ok h
  cases h
  have hall : ∀ x ∈ l, UsesOnly (Stored dv y) x := by
    unfold objectiveTerms at hl
    rw [collect_forall hl]
    intro i _ a ha
    obtain ⟨path, _, ha⟩ := bind_ok ha
    rw [collect_forall ha]
    intro s _ a ha
    split at ha
    · obtain ⟨v, hv, ha⟩ := bind_ok ha
      split at ha
      · cases ha
      · cases ha
        intro c hc
        simp only [List.mem_singleton] at hc; subst hc
        exact usesOnly_smul (usesOnly_smul (usesOnly_var (stored_delay hv)))
    · cases ha; simp
  have key : ∀ (l : List LinExpr) (e : LinExpr), UsesOnly (Stored dv y) e →
      (∀ x ∈ l, UsesOnly (Stored dv y) x) → UsesOnly (Stored dv y) (l.foldl LinExpr.add e) := by
    intro l
    induction l with
    | nil => intro e he _; exact he
    | cons x l ih =>
      intro e he hl
      exact ih _ (usesOnly_add he (hl x List.mem_cons_self))
        fun z hz => hl z (List.mem_cons_of_mem _ hz)
  exact key l _ (by simp [UsesOnly]) hall

theorem mem_vars {p : Problem} {v : LpVar} : v ∈ p.vars ↔
    OccursIn v p.objective ∨ ∃ c ∈ p.constraints, OccursIn v c.2.expr := by
  unfold Problem.vars OccursIn
  simp only [List.mem_dedup, List.mem_append, List.mem_map, List.mem_flatMap]

/-- every variable of a built problem is one of the stored ones -/
theorem vars_stored (hb : buildProblem ts tt dmax cat = .ok b) {v : LpVar} (hv : v ∈ b.prob.vars) :
    Stored b.dv b.y v := by
  rcases mem_vars.1 hv with h | ⟨c, hc, h⟩
  · exact usesOnly_iff.1 (objective_uses (parts hb).hobj) v h
  · obtain ⟨c1, c2, c3, c4, c5, c6, h1, h2, h3, h4, h5, h6, he, _⟩ := built_constraints hb
    rw [he] at hc
    obtain ⟨nc, hnc, rfl⟩ := List.mem_map.1 hc
    simp only [List.mem_append] at hnc
    have : UsesOnly (Stored b.dv b.y) nc.2.expr := by
      rcases hnc with ((((hn | hn) | hn) | hn) | hn) | hn
      · exact (minimalSpan_origin c1 h1 nc hn).2.1
      · exact (minimalStay_origin c2 h2 nc hn).2.1
      · exact (singleLine_origin c3 h3 nc hn).2.1
      · exact (trackOccupation_origin c4 h4 nc hn).2.1
      · exact (rollingStockCirc_origin c5 h5 nc hn).2.1
      · exact (switchOccupation_origin c6 h6 nc hn).2.1
    exact usesOnly_iff.1 this v h

/-! ## Sanitised names -/

/-- characters that PuLP replaces, and the underscore it replaces them with -/
def badChars : List Char := ['-', '+', '[', ']', ' ', '>', '/', '_']

/-- the printed name contains none of them -/
def Clean (v : Val) : Prop := ∀ c ∈ v.render.toList, c ∉ badChars

instance (v : Val) : Decidable (Clean v) := by unfold Clean; infer_instance

theorem Clean.plain {v : Val} (h : Clean v) : Plain v := fun hm => h _ hm (by decide)

theorem sanitize_append (s t : String) : sanitize (s ++ t) = sanitize s ++ sanitize t := by
  apply String.ext
  simp [sanitize]

theorem sanitize_clean {s : String} (h : ∀ c ∈ s.toList, c ∉ ['-', '+', '[', ']', ' ', '>', '/']) :
    sanitize s = s := by
  apply String.ext
  simp only [sanitize, String.toList_ofList]
  conv_rhs => rw [← List.map_id s.toList]
  apply List.map_congr_left
  intro c hc
  rw [if_neg (h c hc)]; rfl

theorem sanitize_render {v : Val} (h : Clean v) : sanitize v.render = v.render := by
  refine sanitize_clean fun c hc hm => h c hc ?_
  have : ['-', '+', '[', ']', ' ', '>', '/'] ⊆ badChars := by decide
  exact this hm

theorem dVar_name {j s : Val} (hj : Clean j) (hs : Clean s) :
    (dVar j s dmax cat).name = "Delays_" ++ key2 j s := by
  unfold dVar key2
  simp only [sanitize_append, sanitize_render hj, sanitize_render hs]
  have h1 : sanitize "Delays_" = "Delays_" := by decide
  have h2 : sanitize "_" = "_" := by decide
  rw [h1, h2]

theorem head_sanitize {c : Char} {s : String} (hc : c ∉ ['-', '+', '[', ']', ' ', '>', '/'])
    {l : List Char} (h : s.toList = c :: l) : ∃ l', (sanitize s).toList = c :: l' := by
  simp only [sanitize, String.toList_ofList, h, List.map_cons, if_neg hc]
  exact ⟨_, rfl⟩

theorem order_head {p : OPath} {v : LpVar} (h : IsYZ p v) :
    (∃ l, v.name.toList = 'y' :: '_' :: l) ∨ ∃ l, v.name.toList = 'z' :: '_' :: l := by
  have hu : ∀ (x : String) (c : Char) (t : String), x.toList = [c, '_'] →
      c ∉ ['-', '+', '[', ']', ' ', '>', '/'] → ∃ l, (sanitize (x ++ t)).toList = c :: '_' :: l := by
    intro x c t hx hc
    refine ⟨(sanitize t).toList, ?_⟩
    rw [sanitize_append, String.toList_append]
    have : (sanitize x).toList = [c, '_'] := by
      simp only [sanitize, String.toList_ofList, hx, List.map_cons, List.map_nil, if_neg hc]
      simp
    rw [this]; rfl
  rcases h with ⟨_, rfl⟩ | rfl
  · exact .inl (hu "y_" 'y' _ (by decide) (by decide))
  · exact .inr (hu "z_" 'z' _ (by decide) (by decide))

end Verif
