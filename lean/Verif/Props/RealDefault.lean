import Verif.Props.RealQubo
import Verif.Proofs.Near
import Verif.Real.NearReal5

/-!
# C81: a penalty that is too small

In case 5 of `solve_real_problem.py` a point that breaks one rule has so much less delay that the default
penalty does not make up for it.
-/

namespace Verif

theorem sum_one_le {α : Type} {l : List (String × α)} (hn : (Dict.keys l).Nodup) {f : String × α → ℚ} {c : ℚ}
    (hc : 0 ≤ c) {n : String} (h0 : ∀ x ∈ l, x.1 ≠ n → f x ≤ 0) (h1 : ∀ x ∈ l, f x ≤ c) :
    (l.map f).sum ≤ c := by
  have h3 : ∀ m : List (String × α), (∀ x ∈ m, x.1 ≠ n) → (∀ x ∈ m, x ∈ l) → (m.map f).sum ≤ 0 := by
    intro m hm hl
    induction m with
    | nil => simp
    | cons a m ih =>
      rw [List.forall_mem_cons] at hm hl
      simp only [List.map_cons, List.sum_cons]
      have := h0 a hl.1 hm.1
      have := ih hm.2 hl.2
      linarith
  have key : ∀ m : List (String × α), (Dict.keys m).Nodup → (∀ x ∈ m, x ∈ l) → (m.map f).sum ≤ c := by
    intro m hn hl
    induction m with
    | nil => simpa using hc
    | cons a m ih =>
      rw [List.forall_mem_cons] at hl
      simp only [Dict.keys, List.map_cons, List.nodup_cons] at hn
      simp only [List.map_cons, List.sum_cons]
      by_cases e : a.1 = n
      · have q1 := h1 a hl.1
        have q2 := h3 m (fun x hx hxn => hn.1 (by
          rw [e, ← hxn]
          exact List.mem_map_of_mem hx)) hl.2
        linarith
      · have q1 := h0 a hl.1 e
        have q2 := ih hn.2 hl.2
        linarith
  exact key l hn fun _ h => h

/-- If all constraints hold but one, which is violated by one at most, the cost is at most the penalty of
switches and the objective. -/
theorem softCost_near {p : Problem} (hk : (Dict.keys p.constraints).Nodup) {pdict : Dict String ℚ}
    {σ : LpVar → ℚ} {e : String → Int → Int → String → String → ℚ} {x₀ p₀ p₁ : String} {t₀ t₁ : Int}
    (he : ∀ x t t' q q', e x t t' q q' = 0 ∨
      (e x t t' q q' = 1 ∧ x = x₀ ∧ t = t₀ ∧ t' = t₁ ∧ q = p₀ ∧ q' = p₁))
    (h : ∀ nc ∈ p.constraints, nc.2.Holds σ ∨ ∃ x t t' q q',
      nc.1 = sanitize (CIx.switch (.int t') (.int t) (.str x) (.str q') (.str q)).name ∧
      nc.2.sense = .ge ∧ -e x t t' q q' ≤ nc.2.expr.eval σ) (hc : 0 ≤ price pdict "switch") :
    softCost p pdict σ ≤ price pdict "switch" + price pdict "objective" * p.objective.eval σ := by
  unfold softCost
  refine add_le_add (sum_one_le hk hc
    (n := sanitize (CIx.switch (.int t₁) (.int t₀) (.str x₀) (.str p₁) (.str p₀)).name) ?_ ?_) (le_refl _)
  · intro nc hnc hne
    have hh : nc.2.Holds σ := by
      rcases h nc hnc with hh | ⟨x, t, t', q, q', h1, h2, h3⟩
      · exact hh
      · rcases he x t t' q q' with e0 | ⟨-, rfl, rfl, rfl, rfl, rfl⟩
        · unfold Constraint.Holds
          rw [h2]
          rw [e0, neg_zero] at h3
          exact h3
        · exact absurd h1 hne
    rw [excess_zero.2 hh]
    simp
  · intro nc hnc
    rcases h nc hnc with hh | ⟨x, t, t', q, q', h1, h2, h3⟩
    · rw [excess_zero.2 hh]
      simpa using hc
    · have h4 : classPrice pdict nc.1 = price pdict "switch" := by
        unfold classPrice
        rw [h1, CIx.getPlaceholder_name]
        rfl
      have h5 : nc.2.excess σ ≤ 1 := by
        unfold Constraint.excess
        rw [h2]
        refine max_le (by norm_num) ?_
        rcases he x t t' q q' with e0 | ⟨e1, -⟩
        · rw [e0] at h3
          linarith
        · rw [e1] at h3
          linarith
      rw [h4]
      have h6 : (nc.2.excess σ) ^ 2 ≤ 1 := pow_le_one₀ (excess_nonneg _) h5
      have := mul_le_mul_of_nonneg_left h6 hc
      linarith

namespace Real

theorem shipped_clear {d : Shipped} (hd : d ∈ shipped) {td : Trains}
    (h : buildTimetables d.sheet d.net.stationTable d.net.pathTable = .ok td) :
    AllMeet td ∧ TurnaroundOK td ∧ LinesClear td ∧ SameCells d.net.pathTable := by
  obtain ⟨cs, hcs, hs⟩ := forall₂_left shipped_safe hd
  obtain ⟨td', h1, h2⟩ := hs.1.1.load hs.1.2
  rw [h] at h1
  cases h1
  have L := hs.1.1.loaded h2
  exact ⟨(hs.1.1.readable L).meet, hs.1.1.turnaround L, hs.1.1.linesClear L, hs.2.cells⟩

/-- A plan that breaks one rule, by one minute, bounds the penalty from below. -/
theorem near_bound {d : Shipped} {cs : List CodedSection} {good : List (Nat × Nat)}
    {R : List (Nat × Nat × List Nat)} {delays : List (Int × ℚ)} {D : Int} {sp : CodedNet.Special}
    {P : CodedNet.Plan} (hd : d ∈ shipped) (h : ReadAs d cs) (W : d.net.NetOK good)
    (S : d.net.SheetOK good R cs) (T : d.net.TableOK) (hl : d.net.NoLoop) (hP : P.map Prod.fst = cs)
    (ok : d.net.PlanBase d.start delays D sp P) {u v : CodedNet.Item} (hu : u ∈ CodedNet.items P)
    (hv : v ∈ CodedNet.items P) (hs : CodedNet.sameMinute u v = true) {n : Nat}
    (ha : CodedNet.againstBut n u v (CodedNet.items P) = true) {x y : String}
    (hx : d.net.stName u.st = some x) (hy : d.net.stName v.st = some y) {B : Nat}
    (hB : d.net.costOK P B = true) (h0 : 0 < D) (hdl : ∀ x ∈ delays, IsInt x.2) {w : ℚ}
    (hO : Optimum d delays D .integer w) {pdict : Dict String ℚ} (hp : PenaltiesSet pdict)
    (hw : (B : ℚ) / 4 / D < w) (hq : QuboSolves d delays D pdict w) :
    price pdict "objective" * w < price pdict "switch" + price pdict "objective" * ((B : ℚ) / 4 / D) := by
  obtain ⟨td, ts, tt, b, q, h1, hi, hb, hc, hex⟩ := hq
  obtain ⟨td', ts', tt', b', h1', hi', hb', hatt, hmin⟩ := hO
  rw [h1] at h1'
  cases h1'
  rw [hi] at hi'
  cases hi'
  rw [hb] at hb'
  cases hb'
  obtain ⟨td', h1', h2⟩ := h.1.load h.2
  rw [h1] at h1'
  cases h1'
  have L := h.1.loaded h2
  have C := CodedNet.coded_of_checks W S T hl h2 L
  have K : d.net.Planned good td d.start delays D sp P := ⟨W, h.1.goodData L, T, hP ▸ C, ok⟩
  have Ty := CodedNet.typed_of S hP L
  have E := CodedNet.hasEarliest K.data hi
  obtain ⟨hm, hta, hlc, hce⟩ := shipped_clear hd h1
  obtain ⟨G, hn, hwt⟩ := shipped_data hd h1
  have H := CodedNet.goesBy_but K hu hv hs ha
  obtain ⟨σ, hadm, hdep, hcon⟩ := TableRulesCore.near G hm hta hlc hce hi hb (K.core H)
    CodedNet.lapse_nonneg (K.crossWithin H)
  have hdom : InDomains b.prob σ := by
    intro z hz
    rcases vars_stored hb hz with ⟨j, s, h1⟩ | ⟨x, y, z, u, h1⟩
    · exact hadm.delays _ _ _ h1
    · exact hadm.orders _ _ _ _ _ h1
  obtain ⟨ds, hds, hsum⟩ := K.cost E Ty hB
  have hobj : b.prob.objective.eval σ = (B : ℚ) / 4 / D := by
    rw [C72_objective K.data hi hb (fun t x hl => (hdep t x _).2 ⟨hl, rfl⟩) hds, ← hsum]
    ring
  have hD : (0 : ℚ) < D := by exact_mod_cast h0
  have hns : ¬ Satisfies b.prob σ := by
    intro hs
    have := hmin σ ⟨hadm, hs⟩
    rw [hobj] at this
    linarith
  have hhard := (qubo_exact_iff hb (intTimes_generated hwt hdl hi) ⟨D, rfl⟩ hD.le
    (varNames_generated G hn hi hb) hc hp hatt hmin).1 hex σ hdom hns
  obtain ⟨-, -, -, -, -, -, -, -, -, -, -, -, -, hnd⟩ := built_constraints hb
  have hsw : 0 ≤ price pdict "switch" := by
    obtain ⟨z, hz, hz0⟩ := hp.2 "switch" (by simp [penaltyClasses])
    unfold price
    rw [hz]
    exact hz0
  have := softCost_near hnd (pdict := pdict) (x₀ := y) (p₀ := x) (p₁ := y) (t₀ := u.train)
    (t₁ := v.train) (fun x' t t' p p' => by
      unfold CodedNet.lapse
      split
      · rename_i hh
        obtain ⟨rfl, rfl, e1, e2, rfl⟩ := hh
        rw [hx] at e1
        rw [hy] at e2
        cases e1
        cases e2
        exact .inr ⟨rfl, rfl, rfl, rfl, rfl, rfl⟩
      · exact .inl rfl) hcon hsw
  rw [hobj] at this
  linarith

theorem penalties_set {p : ℚ} (h : 0 ≤ p) : PenaltiesSet (penalties p) := by
  refine ⟨⟨1, rfl, by norm_num⟩, fun k hk => ⟨p, ?_, h⟩⟩
  simp only [penaltyClasses, List.mem_cons, List.not_mem_nil, or_false] at hk
  rcases hk with rfl | rfl | rfl | rfl | rfl | rfl <;> rfl

/-- **C81**, case 5 of `solve_real_problem.py`: with a penalty of 5/4 or less some bit string of least energy
does not stand for a best solution. -/
theorem C81_small {p : ℚ} (h0 : 0 ≤ p) (h : p ≤ 5 / 4) :
    ¬ QuboSolves ⟨netGt, gt, "16:00"⟩ real5Delays 40 (penalties p) (459 / 4 / 40) := by
  intro hq
  have hO : Optimum ⟨netGt, gt, "16:00"⟩ real5Delays ((40 : Int) : ℚ) .integer (459 / 4 / 40) := by
    have := C79_real (⟨netGt, gt, "16:00"⟩, real5Delays, 459 / 4) (by
      unfold realCases real5Delays
      simp) .integer
    exact_mod_cast this
  have hq : QuboSolves ⟨netGt, gt, "16:00"⟩ real5Delays ((40 : Int) : ℚ) (penalties p) (459 / 4 / 40) := by
    exact_mod_cast hq
  have := near_bound (by simp [shipped]) read_gt netGt_ok gt_sheet (tableOK rfl) netGt_loop
    real5NearPlan_sections real5NearPlan_base real5NearPlan_comes real5NearPlan_leaves
    real5NearPlan_same real5NearPlan_against (x := "KTC") (y := "CB") (by decide +kernel) (by decide +kernel)
    real5NearPlan_cost (by norm_num) (wholeDelays (by decide +kernel)) hO (penalties_set h0) (by norm_num) hq
  have e1 : price (penalties p) "objective" = 1 := rfl
  have e2 : price (penalties p) "switch" = p := rfl
  rw [e1, e2] at this
  norm_num at this
  linarith

/-- **C81**, the default penalty 1 of `solve_real_problem.py` (lines 79-84) is too small in case 5: the claim
for the default penalty is false. -/
theorem C81_default_false : ¬ C81_statement := by
  intro h
  refine C81_small (p := 1) (by norm_num) (by norm_num)
    (h (⟨netGt, gt, "16:00"⟩, real5Delays, 459 / 4) ?_)
  unfold realCases real5Delays
  simp

end Real

end Verif
