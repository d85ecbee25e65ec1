import Verif.Props.RealDefault
import Verif.Proofs.LooseSum

/-!
# C81: penalties that are smaller than the best value of the objective

A point that breaks rules pays the penalty for each of them; what it can save is bounded by a proof by cases
in which rules may be broken (`LooseTree`).
-/

namespace Verif

variable {ts : TrainSets} {tt : Timetable} {dmax : ℚ} {cat : Cat} {b : Built} {σ : LpVar → ℚ}

/-- by how much the constraint with the given name is violated -/
def excessNamed (p : Problem) (σ : LpVar → ℚ) (n : String) : ℚ := match Dict.get? p.constraints n with
  | some c => c.excess σ
  | none => 0

theorem excessNamed_mem {p : Problem} (hn : (Dict.keys p.constraints).Nodup) {c : String × Constraint}
    (h : c ∈ p.constraints) : excessNamed p σ c.1 = c.2.excess σ := by
  unfold excessNamed
  rw [Dict.get?_of_mem hn h]

theorem excessNamed_nonneg {p : Problem} {n : String} : 0 ≤ excessNamed p σ n := by
  unfold excessNamed
  split
  · exact excess_nonneg _
  · exact le_refl _

theorem excessNamed_le {p : Problem} (h : ∀ c ∈ p.constraints, c.2.excess σ ≤ 1) {n : String} :
    excessNamed p σ n ≤ 1 := by
  unfold excessNamed
  split
  · rename_i c hc
    exact h _ (Dict.mem_of_get? hc)
  · norm_num

/-- the built problem, its constraints violated by what they are violated by -/
theorem allLoose_excess (hb : buildProblem ts tt dmax cat = .ok b) (σ : LpVar → ℚ) :
    AllLoose (fun n => excessNamed b.prob σ (sanitize n)) σ ts tt dmax b := by
  obtain ⟨c1, c2, c3, c4, c5, c6, h1, h2, h3, h4, h5, h6, he, hn⟩ := built_constraints hb
  have key : ∀ c ∈ c1 ++ c2 ++ c3 ++ c4 ++ c5 ++ c6, c.2.sense = .ge →
      -excessNamed b.prob σ (sanitize c.1) ≤ c.2.expr.eval σ := by
    intro c hc hs
    have hm : (sanitize c.1, c.2) ∈ b.prob.constraints := by
      rw [he]
      exact List.mem_map_of_mem hc
    rw [excessNamed_mem hn hm]
    unfold Constraint.excess
    simp only [hs]
    have := le_max_right 0 (-c.2.expr.eval σ)
    linarith
  exact ⟨⟨c1, h1, fun c hc => key c (by simp [hc])⟩, ⟨c2, h2, fun c hc => key c (by simp [hc])⟩,
    ⟨c4, h4, fun c hc => key c (by simp [hc])⟩, ⟨c5, h5, fun c hc => key c (by simp [hc])⟩,
    ⟨c6, h6, fun c hc => key c (by simp [hc])⟩⟩

/-- a point in the domains, changed at variables that do not occur -/
theorem admissible_of_domains (hb : buildProblem ts tt dmax cat = .ok b) (h0 : 0 ≤ dmax)
    (h : InDomains b.prob σ) : ∃ σ', Admissible b σ' ∧
      (∀ c ∈ b.prob.constraints, c.2.excess σ' = c.2.excess σ) ∧
      b.prob.objective.eval σ' = b.prob.objective.eval σ := by
  classical
  have P := parts hb
  let τ : LpVar → ℚ := fun v => if v ∈ b.prob.vars then σ v else 0
  have hτ : ∀ v ∈ b.prob.vars, τ v = σ v := fun v hv => by simp only [τ, if_pos hv]
  refine ⟨τ, ⟨?_, ?_⟩, ?_, ?_⟩
  · intro j s v hv
    rw [delayAt_ok, delayVariables_find P.hdv] at hv
    simp only [τ]
    split
    · rename_i hm; exact h v hm
    · rw [hv.2]; exact ⟨le_refl _, h0, fun _ => ⟨0, by simp⟩⟩
  · intro a b' c d v hv
    obtain ⟨_, h2, h3, _⟩ := orderVariables_isOrderVar P.hy hv
    simp only [τ]
    split
    · rename_i hm; exact h v hm
    · unfold InDomain; rw [h2, h3]
      exact ⟨le_refl _, by norm_num, fun _ => ⟨0, by simp⟩⟩
  · intro c hc
    have e : c.2.expr.eval τ = c.2.expr.eval σ := by
      unfold LinExpr.eval
      congr 2
      apply List.map_congr_left
      intro t ht
      rw [hτ _ (mem_vars.2 (.inr ⟨c, hc, t, ht, rfl⟩))]
    unfold Constraint.excess
    rw [e]
  · unfold LinExpr.eval
    congr 2
    apply List.map_congr_left
    intro t ht
    rw [hτ _ (obj_vars ht)]

/-- at most one constraint is violated -/
def OneViolated (p : Problem) (σ : LpVar → ℚ) : Prop :=
  ∀ c ∈ p.constraints, ∀ c' ∈ p.constraints, 0 < c.2.excess σ → 0 < c'.2.excess σ → c.1 = c'.1

open Classical in
/-- a rule is broken when its constraint is violated -/
noncomputable def brokenBy (E : String → ℚ) (w : Why) (t t' : Int) (x : String) : ℚ :=
  if ∃ i, i.Good ∧ keyed w t t' x i ∧ 0 < E i.name then 1 else 0

theorem brokenBy_pos {E : String → ℚ} {w : Why} {t t' : Int} {x : String} (h : 0 < brokenBy E w t t' x) :
    ∃ i, i.Good ∧ keyed w t t' x i ∧ 0 < E i.name := by
  unfold brokenBy at h
  split at h
  · assumption
  · exact absurd h (lt_irrefl _)

theorem brokenBy_le {E : String → ℚ} {w : Why} {t t' : Int} {x : String} : brokenBy E w t t' x ≤ 1 := by
  unfold brokenBy
  split <;> norm_num

theorem brokenBy_one {p : Problem} (h : OneViolated p σ) :
    OneBroken (brokenBy fun n => excessNamed p σ (sanitize n)) := by
  refine ⟨fun t t' x => ?_, fun w t t' x w' u u' y h1 h2 => ?_⟩
  · unfold brokenBy
    split
    · rename_i hx
      obtain ⟨i, -, hk, -⟩ := hx
      exact hk.elim
    · exact le_refl _
  · obtain ⟨i, gi, hi, pi⟩ := brokenBy_pos h1
    obtain ⟨k, gk, hk, pk⟩ := brokenBy_pos h2
    have hcon : ∀ {i : CIx}, i.Good → 0 < excessNamed p σ (sanitize i.name) →
        ∃ c, (i.name, c) ∈ p.constraints ∧ 0 < c.excess σ := by
      intro i gi pi
      rw [sanitize_legal (CIx.legal gi)] at pi
      unfold excessNamed at pi
      split at pi
      · rename_i c hc
        exact ⟨c, Dict.mem_of_get? hc, pi⟩
      · exact absurd pi (lt_irrefl _)
    obtain ⟨c, hc, pc⟩ := hcon gi pi
    obtain ⟨c', hc', pc'⟩ := hcon gk pk
    have := CIx.name_inj gi gk (h _ hc _ hc' pc pc')
    subst this
    exact keyed_unique hi hk

namespace Real

theorem shipped_oneStock {d : Shipped} (hd : d ∈ shipped) {td : Trains}
    (h : buildTimetables d.sheet d.net.stationTable d.net.pathTable = .ok td) :
    OneStock td d.net.stationTable := by
  obtain ⟨cs, hcs, hs⟩ := forall₂_left shipped_safe hd
  obtain ⟨td', h1, h2⟩ := hs.1.1.load hs.1.2
  rw [h] at h1
  cases h1
  have L := hs.1.1.loaded h2
  have key := shipped_numbers cs hcs
  unfold numbersOnce at key
  simp only [List.all_eq_true, Bool.or_eq_true, Bool.not_eq_true', List.any_eq_false, Nat.beq_eq,
    List.mem_map, forall_exists_index, and_imp, forall_apply_eq_imp_iff₂] at key
  have t : ∀ c ∈ cs, (d.net.sec c).train = c.number := shipped_texts cs hcs
  refine oneStock_of_numbers ?_
  rw [L.keys]
  intro n hn1 hn2 hn3
  obtain ⟨s, hs, rfl⟩ := List.mem_map.1 hn1
  obtain ⟨s', hs', e'⟩ := List.mem_map.1 hn2
  obtain ⟨s'', hs'', e''⟩ := List.mem_map.1 hn3
  obtain ⟨c, hc, rfl⟩ := List.mem_map.1 hs
  obtain ⟨c', hc', rfl⟩ := List.mem_map.1 hs'
  obtain ⟨c'', hc'', rfl⟩ := List.mem_map.1 hs''
  rw [t c' hc', t c hc] at e'
  rw [t c'' hc'', t c hc] at e''
  rcases key c hc with k | k
  · exact k c' hc' (by omega)
  · exact k c'' hc'' (by omega)

variable {d : Shipped} {delays : List (Int × ℚ)} {D : Nat} {sp : CodedNet.Special} {P : CodedNet.Plan}

/-- what a proof by cases in which rules may be broken says of the objective -/
theorem WithPlan.loose (h : WithPlan d delays D sp P) (h0 : 0 < D) {B z : Nat}
    {ns : List (Nat × Nat)} {cs : List CodedNet.Choice} {arcs : KeyTree} {tree : LooseTree} {S : TimeTree}
    (hA : (arcs.toList.all fun x => d.net.arcOK sp P ns cs x.1 && d.net.keyOK P ns cs x.1 x.2) = true)
    (hC : cs.all (CodedNet.Choice.ok d.net sp P) = true) (hS : d.net.startOK P ns z D S = true)
    (hT : tree.check arcs B cs.length (.not []) [] S 0 = true) {td : Trains} {ts : TrainSets} {tt : Timetable}
    {b : Built} (h1 : buildTimetables d.sheet d.net.stationTable d.net.pathTable = .ok td)
    (hi : makeInput td d.net.stationTable d.net.pathTable d.start 1 delays = .ok (ts, tt)) {cat : Cat}
    (hb : buildProblem ts tt D cat = .ok b) {σ : LpVar → ℚ} (hσ : InDomains b.prob σ)
    (h1e : ∀ c ∈ b.prob.constraints, c.2.excess σ ≤ 1)
    (hu : tree.plain = true ∨ OneViolated b.prob σ) :
    (B : ℚ) / 4 / D ≤ b.prob.objective.eval σ := by
  obtain ⟨good, td', h1', hm, K, Ty⟩ := h.planned
  rw [h1] at h1'
  cases h1'
  have hD : (0 : ℚ) < D := by exact_mod_cast h0
  have E := CodedNet.hasEarliest K.data hi
  obtain ⟨-, hn, -⟩ := shipped_data h.mem h1
  obtain ⟨-, -, -, hce⟩ := shipped_clear h.mem h1
  have hone := shipped_oneStock h.mem h1
  obtain ⟨τ, hadm, hex, hobj⟩ := admissible_of_domains hb hD.le hσ
  rw [← hobj]
  have h1e' : ∀ c ∈ b.prob.constraints, c.2.excess τ ≤ 1 := fun c hc => by
    rw [hex c hc]
    exact h1e c hc
  have hu' : tree.plain = true ∨ OneViolated b.prob τ := hu.imp id fun h c hc c' hc' p1 p2 =>
    h c hc c' hc' (by rwa [hex c hc] at p1) (by rwa [hex c' hc'] at p2)
  obtain ⟨dep, hdep⟩ := departs_exist K.data hm hi hb τ
  obtain ⟨ds, hds, -⟩ := counted_all K.data hi dep
  rw [C72_objective K.data hi hb hdep hds]
  have R := rules_of_loose K.data hm hce hone hi hb hadm (fun n => excessNamed_nonneg)
    (allLoose_excess hb τ) hdep hn (e := brokenBy fun n => excessNamed b.prob τ (sanitize n))
    (fun w t t' x i gi hk => by
      unfold brokenBy
      split
      · exact excessNamed_le h1e'
      · rename_i hx
        exact not_lt.1 fun hp => hx ⟨i, gi, hk, hp⟩)
  have := K.loose_bound E Ty R (fun w t t' x => brokenBy_le)
    (fun t c c' ht hc hc' => (counted_exists K.data hi dep ht).unique hc hc')
    (hu'.imp id brokenBy_one) hA hC hS hT hds
  apply div_le_div_of_nonneg_right _ hD.le
  linarith

end Real

theorem excess_int {p : Problem} (hi : IntegerData p) {nc : String × Constraint} (hnc : nc ∈ p.constraints)
    (hint : ∀ v ∈ p.vars, ∃ n : ℤ, σ v = n) : ∃ n : ℤ, nc.2.excess σ = n := by
  obtain ⟨k, hk⟩ := eval_int hi hnc hint
  unfold Constraint.excess
  rw [hk]
  cases nc.2.sense
  · exact ⟨max 0 k, by push_cast; rfl⟩
  · exact ⟨max 0 (-k), by push_cast; rfl⟩
  · exact ⟨|k|, by push_cast; rfl⟩

theorem two_le_sum {α : Type} {l : List (String × α)} {f : String × α → ℚ} (h0 : ∀ x ∈ l, 0 ≤ f x) {x y : String × α} (hx : x ∈ l) (hy : y ∈ l)
    (hxy : x.1 ≠ y.1) : f x + f y ≤ (l.map f).sum := by
  induction l with
  | nil => cases hx
  | cons a l ih =>
    rw [List.forall_mem_cons] at h0
    simp only [List.map_cons, List.sum_cons]
    have one : ∀ z ∈ l, f z ≤ (l.map f).sum := fun z hz => List.single_le_sum
      (by intro c hc; obtain ⟨w, hw, rfl⟩ := List.mem_map.1 hc; exact h0.2 w hw) _ (List.mem_map_of_mem hz)
    rcases List.mem_cons.1 hx with rfl | hx'
    · rcases List.mem_cons.1 hy with rfl | hy'
      · exact absurd rfl hxy
      · have := one y hy'
        linarith
    · rcases List.mem_cons.1 hy with rfl | hy'
      · have := one x hx'
        linarith
      · have := ih h0.2 hx' hy'
        have := h0.1
        linarith

/-- A point that is not a solution violates one constraint by one, or several constraints by one, or some
constraint by two at least. -/
theorem softCost_cases (hb : buildProblem ts tt dmax cat = .ok b) (hI : IntTimes tt) (hi : IsInt dmax)
    {q : Qubo} (hq : convertToPyqubo b.prob = .ok q) {pdict : Dict String ℚ} {c : ℚ}
    (hP : ∀ k ∈ penaltyClasses, c ≤ price pdict k) (hc : 0 ≤ c) {σ : LpVar → ℚ}
    (hσ : InDomains b.prob σ) (hn : ¬ Satisfies b.prob σ) :
    ((∀ nc ∈ b.prob.constraints, nc.2.excess σ ≤ 1) ∧ OneViolated b.prob σ ∧
      c + price pdict "objective" * b.prob.objective.eval σ ≤ softCost b.prob pdict σ) ∨
    ((∀ nc ∈ b.prob.constraints, nc.2.excess σ ≤ 1) ∧
      2 * c + price pdict "objective" * b.prob.objective.eval σ ≤ softCost b.prob pdict σ) ∨
    4 * c + price pdict "objective" * b.prob.objective.eval σ ≤ softCost b.prob pdict σ := by
  have hID := built_integerData hb hI hi
  have hcl : ∀ nc ∈ b.prob.constraints, c ≤ classPrice pdict nc.1 := by
    intro nc hnc
    obtain ⟨σ, -, -, hf⟩ := (C23_penalties hq hID).1 (fun _ => false)
    obtain ⟨pen, -, h1, -⟩ := forall₂_left hf hnc
    unfold classPrice
    rw [h1]
    exact hP _ (getPlaceholder_class h1)
  have hnn : ∀ nc ∈ b.prob.constraints, 0 ≤ classPrice pdict nc.1 * (nc.2.excess σ) ^ 2 := fun nc hnc =>
    mul_nonneg (hc.trans (hcl nc hnc)) (sq_nonneg _)
  have hint := domains_int hq hσ
  by_cases h1 : ∀ nc ∈ b.prob.constraints, nc.2.excess σ ≤ 1
  · by_cases h2 : OneViolated b.prob σ
    · exact .inl ⟨h1, h2, softCost_violated hb hI hi hq hP hc hσ hn⟩
    · refine .inr (.inl ⟨h1, ?_⟩)
      unfold OneViolated at h2
      push Not at h2
      obtain ⟨x, hx, y, hy, px, py, hxy⟩ := h2
      have val : ∀ z ∈ b.prob.constraints, 0 < z.2.excess σ →
          c ≤ classPrice pdict z.1 * (z.2.excess σ) ^ 2 := by
        intro z hz pz
        have h2 : (1 : ℚ) ≤ (z.2.excess σ) ^ 2 := one_le_pow₀ (excess_one hID hz hint
          fun h => pz.ne' (excess_zero.2 h))
        have h3 := mul_le_mul_of_nonneg_left h2 (hc.trans (hcl z hz))
        have h4 := hcl z hz
        linarith
      have := two_le_sum hnn hx hy hxy
      have := val x hx px
      have := val y hy py
      unfold softCost
      linarith
  · refine .inr (.inr ?_)
    push Not at h1
    obtain ⟨x, hx, px⟩ := h1
    obtain ⟨k, hk⟩ := excess_int hID hx hint
    have hk2 : (2 : ℚ) ≤ x.2.excess σ := by
      rw [hk] at px ⊢
      have : (1 : ℤ) < k := by exact_mod_cast px
      exact_mod_cast (by omega : (2 : ℤ) ≤ k)
    have h4 : (4 : ℚ) ≤ (x.2.excess σ) ^ 2 := by nlinarith
    have h5 := mul_le_mul_of_nonneg_left h4 (hc.trans (hcl x hx))
    have h6 := hcl x hx
    have h7 : classPrice pdict x.1 * (x.2.excess σ) ^ 2 ≤
        (b.prob.constraints.map fun nc => classPrice pdict nc.1 * (nc.2.excess σ) ^ 2).sum := by
      apply List.single_le_sum
      · intro a ha
        obtain ⟨nc', hnc', rfl⟩ := List.mem_map.1 ha
        exact hnn nc' hnc'
      · exact List.mem_map_of_mem (f := fun nc : String × Constraint =>
          classPrice pdict nc.1 * (nc.2.excess σ) ^ 2) hx
    unfold softCost
    linarith

namespace Real

variable {d : Shipped} {delays : List (Int × ℚ)} {D : Nat} {sp : CodedNet.Special} {P : CodedNet.Plan}

/-- What the objective of a point in the domains is at least: `B₁` if one constraint is violated by one, and
`B₂` if constraints are violated by one. (Quarters of minutes.) -/
structure LooseBounds (d : Shipped) (delays : List (Int × ℚ)) (D B₁ B₂ : Nat) : Prop where
  one : ∀ td ts tt b, buildTimetables d.sheet d.net.stationTable d.net.pathTable = .ok td →
    makeInput td d.net.stationTable d.net.pathTable d.start 1 delays = .ok (ts, tt) →
    buildProblem ts tt D .integer = .ok b → ∀ σ, InDomains b.prob σ →
    (∀ c ∈ b.prob.constraints, c.2.excess σ ≤ 1) → OneViolated b.prob σ →
    (B₁ : ℚ) / 4 / D ≤ b.prob.objective.eval σ
  some : ∀ td ts tt b, buildTimetables d.sheet d.net.stationTable d.net.pathTable = .ok td →
    makeInput td d.net.stationTable d.net.pathTable d.start 1 delays = .ok (ts, tt) →
    buildProblem ts tt D .integer = .ok b → ∀ σ, InDomains b.prob σ →
    (∀ c ∈ b.prob.constraints, c.2.excess σ ≤ 1) → (B₂ : ℚ) / 4 / D ≤ b.prob.objective.eval σ

/-- Penalties that make up for what can be saved are large enough. -/
theorem LooseBounds.qubo {B₁ B₂ : Nat} (L : LooseBounds d delays D B₁ B₂) (hd : d ∈ shipped) (h0 : 0 < D)
    (hdl : ∀ x ∈ delays, IsInt x.2) {w : ℚ} (hO : Optimum d delays D .integer w) {p p' : ℚ}
    (hq : QuboSolves d delays D (penalties p') w) (hp : 0 ≤ p) (h1 : w < p + (B₁ : ℚ) / 4 / D)
    (h2 : w < 2 * p + (B₂ : ℚ) / 4 / D) (h4 : w < 4 * p) : QuboSolves d delays D (penalties p) w := by
  obtain ⟨td, ts, tt, b, q, hl, hi, hb, hc, -⟩ := hq
  obtain ⟨td', ts', tt', b', hl', hi', hb', hatt, hmin⟩ := hO
  rw [hl] at hl'
  cases hl'
  rw [hi] at hi'
  cases hi'
  rw [hb] at hb'
  cases hb'
  have hD : (0 : ℚ) < D := by exact_mod_cast h0
  obtain ⟨G, hn, hwt⟩ := shipped_data hd hl
  have hI := intTimes_generated hwt hdl hi
  have hDi : IsInt (D : ℚ) := ⟨D, by push_cast; rfl⟩
  refine ⟨td, ts, tt, b, q, hl, hi, hb, hc, (qubo_exact_iff hb hI hDi hD.le
    (varNames_generated G hn hi hb) hc (penalties_set hp) hatt hmin).2 fun σ hσ hns => ?_⟩
  have e1 : price (penalties p) "objective" = 1 := rfl
  rw [e1, one_mul]
  rcases softCost_cases hb hI hDi hc (pdict := penalties p) (c := p) (fun k hk => by
      simp only [penaltyClasses, List.mem_cons, List.not_mem_nil, or_false] at hk
      rcases hk with rfl | rfl | rfl | rfl | rfl | rfl <;> exact le_refl p) hp hσ hns with
    ⟨q1, q2, q3⟩ | ⟨q1, q3⟩ | q3
  · have := L.one td ts tt b hl hi hb σ hσ q1 q2
    rw [e1] at q3
    linarith
  · have := L.some td ts tt b hl hi hb σ hσ q1
    rw [e1] at q3
    linarith
  · have := (objective_range hb hD.le (fun c _ => weights_generated hi c.1 c.2) hσ).1
    rw [e1] at q3
    linarith

end Real

end Verif
