import Verif.Props.Bqm
import Mathlib.Algebra.Order.BigOperators.Group.List
import Mathlib.Algebra.Order.Ring.Abs

/-!
# Penalties and ground states: C23, C24
-/

namespace Verif

/-- the bit string stands for the assignment `σ` -/
def Decodes (p : Problem) (x : Bits) (σ : LpVar → ℚ) : Prop :=
  ∀ v ∈ p.vars, ∃ e, bqmVar v = .ok e ∧ σ v = e.eval x

/-- all coefficients and constants of the constraints are integers -/
def IntegerData (p : Problem) : Prop :=
  ∀ nc ∈ p.constraints, (∀ t ∈ nc.2.expr.terms, ∃ n : ℤ, t.2 = n) ∧ ∃ n : ℤ, nc.2.expr.const = n

/-- the names of variables and constraints are all different and without brackets -/
def GoodLabels (p : Problem) : Prop :=
  (p.vars.map (·.name) ++ Dict.keys p.constraints).Nodup ∧
    ∀ s ∈ p.vars.map (·.name) ++ Dict.keys p.constraints, '[' ∉ s.toList

instance (p : Problem) : Decidable (GoodLabels p) := by unfold GoodLabels; infer_instance

/-- every variable has a value in its domain -/
def InDomains (p : Problem) (σ : LpVar → ℚ) : Prop := ∀ v ∈ p.vars, InDomain v (σ v)

/-! ## Lemmas -/

/-- the bits of the label can be chosen to give the value `val` -/
def Settable (l : String) (e : BitExpr) (val : ℚ) : Prop :=
  ∀ x₀ : Bits, ∃ x : Bits, e.eval x = val ∧ ∀ s, ¬ Owned l s → x s = x₀ s

theorem bqmVar_spec {v : LpVar} {e : BitExpr} (h : bqmVar v = .ok e) :
    (∀ x, InDomain v (e.eval x)) ∧ (∀ t ∈ e.terms, Owned v.name t.1) ∧
    ('[' ∉ v.name.toList → ∀ a, InDomain v a → Settable v.name e a) := by
  unfold bqmVar at h
  split at h
  · cases h
  · rename_i hcat
    have hint : v.cat = .integer := by cases hc : v.cat <;> simp_all
    split at h
    · rename_i hb
      cases h
      simp only [isBinary, Bool.and_eq_true, decide_eq_true_eq] at hb
      obtain ⟨⟨_, h2⟩, h3⟩ := hb
      refine ⟨?_, ?_, ?_⟩
      · intro x
        simp only [BitExpr.eval, List.map_cons, List.map_nil, List.sum_cons, List.sum_nil, add_zero,
          one_mul, InDomain, h2, h3]
        cases x v.name
        · exact ⟨by norm_num, by norm_num, fun _ => ⟨0, by norm_num⟩⟩
        · exact ⟨by norm_num, by norm_num, fun _ => ⟨1, by norm_num⟩⟩
      · intro t ht
        simp only [List.mem_singleton] at ht
        subst ht; exact .inl rfl
      · rintro _ a ⟨ha1, ha2, ha3⟩ x₀
        classical
        obtain ⟨n, rfl⟩ := ha3 hint
        rw [h2] at ha1
        rw [h3] at ha2
        have h0 : (0 : ℤ) ≤ n := by exact_mod_cast ha1
        have h1 : n ≤ (1 : ℤ) := by exact_mod_cast ha2
        refine ⟨fun s => if s = v.name then decide (n = 1) else x₀ s, ?_, ?_⟩
        · have : n = 0 ∨ n = 1 := by omega
          rcases this with rfl | rfl <;> simp [BitExpr.eval]
        · intro s hs
          have : s ≠ v.name := fun h => hs (.inl h)
          simp [this]
    · obtain ⟨_, h22⟩ := C22_range v.name v.low v.up
      obtain ⟨ha, hb⟩ := h22 e h
      refine ⟨?_, logEnc_owned h, ?_⟩
      · intro x
        obtain ⟨n, hn, h1, h2⟩ := ha x
        rw [hn]
        exact ⟨h1, h2, fun _ => ⟨n, rfl⟩⟩
      · rintro hl a ⟨h1, h2, h3⟩ x₀
        obtain ⟨n, rfl⟩ := h3 hint
        exact hb hl n x₀ h1 h2

/-- what `vars_trans` holds -/
structure BTransOK (p : Problem) (tr : List (LpVar × BitExpr)) : Prop where
  var : ∀ v ∈ p.vars, ∃ e, bqmVar v = .ok e ∧ Dict.get? tr v = some e

theorem bqmVars_ok {p : Problem} {tr : List (LpVar × BitExpr)} (h : bqmVars p = .ok tr) :
    BTransOK p tr := by
  have hf := mapPy_forall₂ h
  have hkeys : Dict.keys tr = p.vars := by
    clear h
    revert hf
    generalize p.vars = l
    intro hf
    induction hf with
    | nil => rfl
    | cons h1 _ ih =>
      obtain ⟨c, _, h1⟩ := bind_ok h1
      cases h1
      simp only [Dict.keys, List.map_cons] at ih ⊢
      rw [ih]
  have hnd : (Dict.keys tr).Nodup := by rw [hkeys]; exact List.nodup_dedup _
  constructor
  intro v hv
  obtain ⟨t, ht, h1⟩ := forall₂_left hf hv
  obtain ⟨c, hc, h1⟩ := bind_ok h1
  cases h1
  exact ⟨c, hc, Dict.get?_of_mem hnd ht⟩

theorem decodes_exists {p : Problem} {tr : List (LpVar × BitExpr)} (T : BTransOK p tr) (x : Bits) :
    ∃ σ, Decodes p x σ := by
  classical
  refine ⟨fun v => match bqmVar v with | .ok e => e.eval x | .error _ => 0, fun v hv => ?_⟩
  obtain ⟨e, he, _⟩ := T.var v hv
  exact ⟨e, he, by simp only [he]⟩

theorem decodes_domain {p : Problem} {x : Bits} {σ : LpVar → ℚ} (h : Decodes p x σ) :
    InDomains p σ := by
  intro v hv
  obtain ⟨e, he, hσ⟩ := h v hv
  rw [hσ]
  exact (bqmVar_spec he).1 x

theorem eval_smul_terms (x : Bits) (l : List (String × ℚ)) (c : ℚ) :
    ((l.map fun b => (b.1, c * b.2)).map fun t : String × ℚ =>
      t.2 * (if x t.1 then 1 else 0)).sum =
    c * (l.map fun t => t.2 * (if x t.1 then 1 else 0)).sum := by
  induction l with
  | nil => simp
  | cons t l ih =>
    simp only [List.map_cons, List.sum_cons, ih, mul_add]
    ring

theorem bqmSum_eval {p : Problem} {tr : List (LpVar × BitExpr)} (T : BTransOK p tr)
    {items : List (LpVar × ℚ)} (hi : ∀ t ∈ items, t.1 ∈ p.vars) {c : ℚ} {e : BitExpr}
    (h : bqmSum tr items c = .ok e) {x : Bits} {σ : LpVar → ℚ} (hd : Decodes p x σ) :
    e.eval x = (items.map fun t => t.2 * σ t.1).sum + c := by
  have key : ∀ (items : List (LpVar × ℚ)) (e0 : BitExpr), (∀ t ∈ items, t.1 ∈ p.vars) →
      loop items (fun (e : BitExpr) t => do
        let x ← Dict.at! tr t.1
        .ok ⟨e.terms ++ x.terms.map (fun b => (b.1, t.2 * b.2)), e.const + t.2 * x.const⟩) e0
        = .ok e →
      e.eval x = e0.eval x + (items.map fun t => t.2 * σ t.1).sum := by
    intro items
    induction items with
    | nil => intro e0 _ h; simp only [loop, Except.ok.injEq] at h; subst h; simp
    | cons t items ih =>
      intro e0 hi h
      obtain ⟨f, hf, hg⟩ := T.var _ (hi t List.mem_cons_self)
      obtain ⟨f', hf', hσ⟩ := hd _ (hi t List.mem_cons_self)
      rw [hf] at hf'; cases hf'
      simp only [loop, Dict.at!_ok.2 hg, bind, Except.bind] at h
      rw [ih _ (fun t ht => hi t (List.mem_cons_of_mem _ ht)) h]
      simp only [BitExpr.eval, List.map_append, List.sum_append, List.map_cons, List.sum_cons, hσ]
      rw [eval_smul_terms]
      ring
  rw [key items _ hi h]
  simp only [BitExpr.eval, List.map_nil, List.sum_nil]
  ring

/-- `_get_slack_ub` bounds the slack -/
theorem slackUb_bound {p : Problem} {data : List (LpVar × ℚ)} (hd : ∀ t ∈ data, t.1 ∈ p.vars)
    {off ub : ℚ} (h : getSlackUb data off = .ok ub) {σ : LpVar → ℚ} (hσ : InDomains p σ) :
    -((data.map fun t => t.2 * σ t.1).sum + off) ≤ ub := by
  unfold getSlackUb at h
  simp only at h
  split at h
  · cases h
    have : lowestValue data ≤ (data.map fun t => t.2 * σ t.1).sum := by
      unfold lowestValue
      clear * - hd hσ
      induction data with
      | nil => simp
      | cons t data ih =>
        simp only [List.map_cons, List.sum_cons]
        have h1 := ih fun t ht => hd t (List.mem_cons_of_mem _ ht)
        obtain ⟨h2, h3, _⟩ := hσ _ (hd t List.mem_cons_self)
        split
        · rename_i hneg
          have : t.2 * t.1.up ≤ t.2 * σ t.1 := mul_le_mul_of_nonpos_left h3 hneg.le
          linarith
        · rename_i hpos
          have : t.2 * t.1.low ≤ t.2 * σ t.1 := mul_le_mul_of_nonneg_left h2 (not_lt.1 hpos)
          linarith
    linarith
  · cases h

/-- the penalty that belongs to a constraint -/
def PenaltyFor (p : Problem) (nc : String × Constraint) (pen : Penalty) : Prop :=
  getPlaceholder nc.1 = .ok pen.placeholder ∧
  ((nc.2.sense = .eq ∧ ∀ x σ, Decodes p x σ → pen.expr.eval x = nc.2.expr.eval σ) ∨
  ∃ ub s sg, ((sg = 1 ∧ nc.2.sense = .le) ∨ (sg = -1 ∧ nc.2.sense = .ge)) ∧
    logEncInteger nc.1 0 ub = .ok s ∧
    (∀ σ, InDomains p σ → -(sg * nc.2.expr.eval σ) ≤ ub) ∧
    ∀ x σ, Decodes p x σ → pen.expr.eval x = nc.2.expr.eval σ + sg * s.eval x)

theorem bqmPenalty_ok {p : Problem} {tr : List (LpVar × BitExpr)} (T : BTransOK p tr)
    {nc : String × Constraint} (hnc : nc ∈ p.constraints) {pen : Penalty}
    (h : bqmPenalty tr nc = .ok pen) : PenaltyFor p nc pen := by
  unfold bqmPenalty at h
  obtain ⟨e, he, h⟩ := bind_ok h
  obtain ⟨ph, hph, h⟩ := bind_ok h
  obtain ⟨f, hf, h⟩ := bind_ok h
  cases h
  have hterm : ∀ t ∈ nc.2.expr.terms, t.1 ∈ p.vars := fun t ht => term_vars hnc ht
  have hev : ∀ x σ, Decodes p x σ → e.eval x = nc.2.expr.eval σ := fun x σ hd => by
    rw [bqmSum_eval T hterm he hd]; rfl
  refine ⟨hph, ?_⟩
  unfold bqmPenaltyExpr at hf
  split at hf
  · rename_i hs
    cases hf
    exact .inl ⟨hs, hev⟩
  · rename_i hs
    obtain ⟨ub, hub, hf⟩ := bind_ok hf
    obtain ⟨s, hse, hf⟩ := bind_ok hf
    cases hf
    refine .inr ⟨ub, s, 1, .inl ⟨rfl, hs⟩, hse, ?_, ?_⟩
    · intro σ hσ
      have := slackUb_bound hterm hub hσ
      simpa [LinExpr.eval] using this
    · intro x σ hd
      rw [← hev x σ hd]
      simp only [BitExpr.eval, List.map_append, List.sum_append]
      ring
  · rename_i hs
    obtain ⟨ub, hub, hf⟩ := bind_ok hf
    obtain ⟨s, hse, hf⟩ := bind_ok hf
    cases hf
    refine .inr ⟨ub, s, -1, .inr ⟨rfl, hs⟩, hse, ?_, ?_⟩
    · intro σ hσ
      have := slackUb_bound (data := nc.2.expr.terms.map fun t => (t.1, -t.2)) (by
        intro t ht
        obtain ⟨t', ht', rfl⟩ := List.mem_map.1 ht
        exact hterm t' ht') hub hσ
      have e1 : ((nc.2.expr.terms.map fun t => (t.1, -t.2)).map
          fun t : LpVar × ℚ => t.2 * σ t.1).sum =
          -(nc.2.expr.terms.map fun t => t.2 * σ t.1).sum := by
        generalize nc.2.expr.terms = l
        induction l with
        | nil => simp
        | cons t l ih => simp only [List.map_cons, List.sum_cons, ih]; ring
      rw [e1] at this
      simp only [LinExpr.eval]
      linarith
    · intro x σ hd
      rw [← hev x σ hd]
      have e2 := eval_smul_terms x s.terms (-1)
      simp only [neg_mul, one_mul] at e2
      simp only [BitExpr.eval, List.map_append, List.sum_append, e2]
      ring

theorem eval_int {p : Problem} (hi : IntegerData p) {nc : String × Constraint}
    (hnc : nc ∈ p.constraints) {σ : LpVar → ℚ} (hσ : ∀ v ∈ p.vars, ∃ n : ℤ, σ v = n) :
    ∃ n : ℤ, nc.2.expr.eval σ = n := by
  obtain ⟨h1, m, hm⟩ := hi nc hnc
  have h2 : ∀ t ∈ nc.2.expr.terms, ∃ n : ℤ, σ t.1 = n := fun t ht => hσ _ (term_vars hnc ht)
  unfold LinExpr.eval
  have : ∃ k : ℤ, (nc.2.expr.terms.map fun t => t.2 * σ t.1).sum = k := by
    revert h1 h2
    generalize nc.2.expr.terms = l
    intro h1 h2
    induction l with
    | nil => exact ⟨0, by simp⟩
    | cons t l ih =>
      obtain ⟨k, hk⟩ := ih (fun t ht => h1 t (List.mem_cons_of_mem _ ht))
        (fun t ht => h2 t (List.mem_cons_of_mem _ ht))
      obtain ⟨a, ha⟩ := h1 t List.mem_cons_self
      obtain ⟨c, hc⟩ := h2 t List.mem_cons_self
      exact ⟨a * c + k, by simp only [List.map_cons, List.sum_cons, hk, ha, hc]; push_cast; ring⟩
  obtain ⟨k, hk⟩ := this
  exact ⟨k + m, by rw [hk, hm]; push_cast; ring⟩

/-- by how much a constraint is violated -/
def Constraint.excess (σ : LpVar → ℚ) (c : Constraint) : ℚ := match c.sense with
  | .le => max 0 (c.expr.eval σ)
  | .ge => max 0 (-c.expr.eval σ)
  | .eq => |c.expr.eval σ|

theorem excess_zero {σ : LpVar → ℚ} {c : Constraint} : c.excess σ = 0 ↔ c.Holds σ := by
  unfold Constraint.excess Constraint.Holds
  cases c.sense <;> simp

theorem excess_nonneg {σ : LpVar → ℚ} (c : Constraint) : 0 ≤ c.excess σ := by
  unfold Constraint.excess
  cases c.sense <;> simp

/-- the penalty of a constraint is not less than the square of what it is violated by -/
theorem penalty_excess {p : Problem} {nc : String × Constraint} {pen : Penalty}
    (h : PenaltyFor p nc pen) {x : Bits} {σ : LpVar → ℚ} (hd : Decodes p x σ) :
    nc.2.excess σ ≤ |pen.expr.eval x| := by
  rcases h.2 with ⟨hs, he⟩ | ⟨ub, s, sg, hsg, hlog, _, he⟩
  · simp only [he x σ hd, Constraint.excess, hs, le_refl]
  · obtain ⟨m, hm, hm0, _⟩ := ((C22_range nc.1 0 ub).2 s hlog).1 x
    rw [he x σ hd, hm]
    rcases hsg with ⟨rfl, hs⟩ | ⟨rfl, hs⟩
    · simp only [Constraint.excess, hs, one_mul]
      refine max_le (abs_nonneg _) ((by linarith : nc.2.expr.eval σ ≤ _).trans (le_abs_self _))
    · simp only [Constraint.excess, hs, neg_one_mul]
      refine max_le (abs_nonneg _) ((by linarith : -nc.2.expr.eval σ ≤ _).trans (neg_le_abs _))

/-- a constraint with whole numbers is violated by 1 at least -/
theorem excess_one {p : Problem} (hi : IntegerData p) {nc : String × Constraint}
    (hnc : nc ∈ p.constraints) {σ : LpVar → ℚ} (hint : ∀ v ∈ p.vars, ∃ n : ℤ, σ v = n)
    (hv : ¬ nc.2.Holds σ) : 1 ≤ nc.2.excess σ := by
  obtain ⟨k, hk⟩ := eval_int hi hnc hint
  unfold Constraint.excess
  cases hs : nc.2.sense with
  | le =>
    simp only [Constraint.Holds, hs, hk, not_le] at hv
    have hv' : 0 < k := by exact_mod_cast hv
    simp only [hk]
    exact le_max_of_le_right (by exact_mod_cast hv')
  | ge =>
    simp only [Constraint.Holds, hs, hk, not_le] at hv
    have hv' : k < 0 := by exact_mod_cast hv
    simp only [hk]
    exact le_max_of_le_right (by exact_mod_cast (by omega : 1 ≤ -k))
  | eq =>
    simp only [Constraint.Holds, hs, hk] at hv
    have hv' : k ≠ 0 := fun h => hv (by rw [h]; norm_num)
    simp only [hk]
    exact_mod_cast Int.one_le_abs hv'

/-- a violated constraint costs at least 1 -/
theorem penalty_violated {p : Problem} (hi : IntegerData p) {nc : String × Constraint}
    (hnc : nc ∈ p.constraints) {pen : Penalty} (h : PenaltyFor p nc pen) {x : Bits}
    {σ : LpVar → ℚ} (hd : Decodes p x σ) (hint : ∀ v ∈ p.vars, ∃ n : ℤ, σ v = n)
    (hv : ¬ nc.2.Holds σ) : 1 ≤ (pen.expr.eval x) ^ 2 := by
  rw [← sq_abs]
  exact one_le_pow₀ ((excess_one hi hnc hint hv).trans (penalty_excess h hd))

/-- choosing the bits of all labels -/
theorem set_all (items : List (String × BitExpr × ℚ)) (hnd : (items.map (·.1)).Nodup)
    (hb : ∀ it ∈ items, '[' ∉ it.1.toList)
    (ho : ∀ it ∈ items, ∀ t ∈ it.2.1.terms, Owned it.1 t.1)
    (hs : ∀ it ∈ items, Settable it.1 it.2.1 it.2.2) :
    ∃ x, ∀ it ∈ items, it.2.1.eval x = it.2.2 := by
  induction items with
  | nil => exact ⟨fun _ => false, by simp⟩
  | cons a items ih =>
    simp only [List.map_cons, List.nodup_cons] at hnd
    rw [List.forall_mem_cons] at hb ho hs
    obtain ⟨x₀, hx₀⟩ := ih hnd.2 hb.2 ho.2 hs.2
    obtain ⟨x, hx1, hx2⟩ := hs.1 x₀
    refine ⟨x, List.forall_mem_cons.2 ⟨hx1, fun it hit => ?_⟩⟩
    rw [← hx₀ it hit]
    apply BitExpr.eval_congr
    intro t ht
    apply hx2
    intro hown
    have := owned_unique hb.1 (hb.2 it hit) hown (ho.2 it hit t ht)
    exact hnd.1 (this ▸ List.mem_map_of_mem (f := fun i : String × BitExpr × ℚ => i.1) hit)

/-! ## C23 -/

/-- **C23**, the least penalties. (1) Every bit string stands for a point in the domains, and the penalty of
a constraint is at least the square of what it is violated by there; (2) every point in the domains is given
by some bit string for which all penalties are equal to these squares. -/
theorem C23_excess {p : Problem} {q : Qubo} (h : convertToPyqubo p = .ok q)
    (hi : IntegerData p) :
    (∀ x, ∃ σ, Decodes p x σ ∧ InDomains p σ ∧ (∀ v ∈ p.vars, ∃ n : ℤ, σ v = n) ∧
      List.Forall₂ (fun nc pen => nc ∈ p.constraints ∧ getPlaceholder nc.1 = .ok pen.placeholder ∧
        nc.2.excess σ ≤ |pen.expr.eval x|) p.constraints q.penalties) ∧
    (GoodLabels p → ∀ σ, InDomains p σ → ∃ x, Decodes p x σ ∧ List.Forall₂ (fun nc pen =>
      |pen.expr.eval x| = nc.2.excess σ) p.constraints q.penalties) := by
  unfold convertToPyqubo at h
  obtain ⟨tr, htr, h⟩ := bind_ok h
  obtain ⟨ps, hps, h⟩ := bind_ok h
  obtain ⟨o, ho, h⟩ := bind_ok h
  split at h
  · cases h
  cases h
  have T := bqmVars_ok htr
  have hps' := mapPy_forall₂ hps
  have hpen : List.Forall₂ (fun nc pen => nc ∈ p.constraints ∧ PenaltyFor p nc pen)
      p.constraints ps := by
    have : ∀ l : List (String × Constraint), ∀ ps, (∀ nc ∈ l, nc ∈ p.constraints) →
        List.Forall₂ (fun x y => bqmPenalty tr x = .ok y) l ps →
        List.Forall₂ (fun nc pen => nc ∈ p.constraints ∧ PenaltyFor p nc pen) l ps := by
      intro l ps hl hf
      induction hf with
      | nil => exact .nil
      | cons h1 _ ih =>
        rw [List.forall_mem_cons] at hl
        exact .cons ⟨hl.1, bqmPenalty_ok T hl.1 h1⟩ (ih hl.2)
    exact this _ _ (fun _ h => h) hps'
  have hint : ∀ σ, InDomains p σ → ∀ v ∈ p.vars, ∃ n : ℤ, σ v = n := by
    intro σ hσ v hv
    refine (hσ v hv).2.2 ?_
    obtain ⟨e, he, _⟩ := T.var v hv
    unfold bqmVar at he
    split at he
    · cases he
    · cases hc : v.cat <;> simp_all
  constructor
  · intro x
    obtain ⟨σ, hd⟩ := decodes_exists T x
    have hdom := decodes_domain hd
    exact ⟨σ, hd, hdom, hint σ hdom, hpen.imp fun nc pen hp => ⟨hp.1, hp.2.1, penalty_excess hp.2 hd⟩⟩
  · rintro ⟨hnd, hbr⟩ σ hσ
    classical
    -- the slack of each constraint
    have hslack : ∀ nc ∈ p.constraints, ∀ pen, PenaltyFor p nc pen → ∃ s : BitExpr × ℚ,
        (∀ t ∈ s.1.terms, Owned nc.1 t.1) ∧ Settable nc.1 s.1 s.2 ∧
        (∀ x, Decodes p x σ → s.1.eval x = s.2 → |pen.expr.eval x| = nc.2.excess σ) := by
      intro nc hnc pen hp
      have hl : '[' ∉ nc.1.toList := hbr _ (List.mem_append_right _ (List.mem_map_of_mem hnc))
      rcases hp.2 with ⟨hs, he⟩ | ⟨ub, s, sg, hsg, hlog, hub, he⟩
      · refine ⟨(⟨[], 0⟩, 0), by simp, fun x₀ => ⟨x₀, by simp [BitExpr.eval], fun _ _ => rfl⟩, ?_⟩
        intro x hd _
        simp only [he x σ hd, Constraint.excess, hs]
      · obtain ⟨k, hk⟩ := eval_int hi hnc (hint σ hσ)
        have hub' := hub σ hσ
        have hub0 : 0 < ub := ((C22_range nc.1 0 ub).1.1 ⟨s, hlog⟩).1
        have hset := ((C22_range nc.1 0 ub).2 s hlog).2 hl
        rcases hsg with ⟨rfl, hs⟩ | ⟨rfl, hs⟩
        · rcases le_total k 0 with hk0 | hk0
          · have hk1 : (k : ℚ) ≤ 0 := by exact_mod_cast hk0
            refine ⟨(s, ((-k : ℤ) : ℚ)), logEnc_owned hlog, fun x₀ => ?_, ?_⟩
            · exact hset (-k) x₀ (by push_cast; linarith) (by push_cast; linarith)
            · intro x hd hx
              simp only at hx
              simp only [he x σ hd, hx, hk, Constraint.excess, hs, max_eq_left hk1]
              push_cast
              simp
          · have hk1 : (0 : ℚ) ≤ k := by exact_mod_cast hk0
            refine ⟨(s, ((0 : ℤ) : ℚ)), logEnc_owned hlog, fun x₀ => ?_, ?_⟩
            · exact hset 0 x₀ (by simp) (by push_cast; linarith)
            · intro x hd hx
              simp only at hx
              simp only [he x σ hd, hx, hk, Constraint.excess, hs, max_eq_right hk1]
              simp [abs_of_nonneg hk1]
        · rcases le_total k 0 with hk0 | hk0
          · have hk1 : (k : ℚ) ≤ 0 := by exact_mod_cast hk0
            refine ⟨(s, ((0 : ℤ) : ℚ)), logEnc_owned hlog, fun x₀ => ?_, ?_⟩
            · exact hset 0 x₀ (by simp) (by push_cast; linarith)
            · intro x hd hx
              simp only at hx
              simp only [he x σ hd, hx, hk, Constraint.excess, hs,
                max_eq_right (by linarith : (0 : ℚ) ≤ -k)]
              simp [abs_of_nonpos hk1]
          · have hk1 : (0 : ℚ) ≤ k := by exact_mod_cast hk0
            refine ⟨(s, (k : ℚ)), logEnc_owned hlog, fun x₀ => ?_, ?_⟩
            · exact hset k x₀ (by linarith) (by linarith)
            · intro x hd hx
              simp only at hx
              simp only [he x σ hd, hx, hk, Constraint.excess, hs,
                max_eq_left (by linarith : -(k : ℚ) ≤ 0)]
              simp
    have hvar : ∀ v ∈ p.vars, ∃ e, bqmVar v = .ok e := fun v hv => by
      obtain ⟨e, he, _⟩ := T.var v hv; exact ⟨e, he⟩
    choose! ev hev using hvar
    have hchoice : ∀ nc ∈ p.constraints, ∃ s : BitExpr × ℚ,
        (∀ t ∈ s.1.terms, Owned nc.1 t.1) ∧ Settable nc.1 s.1 s.2 ∧
        ∀ pen, bqmPenalty tr nc = .ok pen → ∀ x, Decodes p x σ →
          s.1.eval x = s.2 → |pen.expr.eval x| = nc.2.excess σ := by
      intro nc hnc
      obtain ⟨pen, _, hpe⟩ := forall₂_left hps' hnc
      obtain ⟨s, h1, h2, h3⟩ := hslack nc hnc pen (bqmPenalty_ok T hnc hpe)
      refine ⟨s, h1, h2, fun pen' hp' => ?_⟩
      rw [hpe] at hp'; cases hp'
      exact h3
    choose! sl hsl1 hsl2 hsl3 using hchoice
    obtain ⟨x, hx⟩ := set_all
      (p.vars.map (fun v => (v.name, ev v, σ v)) ++
        p.constraints.map fun nc => (nc.1, (sl nc).1, (sl nc).2))
      (by simpa [List.map_append, List.map_map, Function.comp_def, Dict.keys] using hnd)
      (by
        intro it hit
        rcases List.mem_append.1 hit with h | h
        · obtain ⟨v, hv, rfl⟩ := List.mem_map.1 h
          exact hbr _ (List.mem_append_left _ (List.mem_map_of_mem (f := fun v : LpVar => v.name) hv))
        · obtain ⟨nc, hnc, rfl⟩ := List.mem_map.1 h
          exact hbr _ (List.mem_append_right _ (List.mem_map_of_mem hnc)))
      (by
        intro it hit
        rcases List.mem_append.1 hit with h | h
        · obtain ⟨v, hv, rfl⟩ := List.mem_map.1 h
          exact (bqmVar_spec (hev v hv)).2.1
        · obtain ⟨nc, hnc, rfl⟩ := List.mem_map.1 h
          exact hsl1 nc hnc)
      (by
        intro it hit
        rcases List.mem_append.1 hit with h | h
        · obtain ⟨v, hv, rfl⟩ := List.mem_map.1 h
          exact (bqmVar_spec (hev v hv)).2.2 (hbr _ (List.mem_append_left _
            (List.mem_map_of_mem (f := fun v : LpVar => v.name) hv))) _ (hσ v hv)
        · obtain ⟨nc, hnc, rfl⟩ := List.mem_map.1 h
          exact hsl2 nc hnc)
    have hd : Decodes p x σ := fun v hv => ⟨ev v, hev v hv,
      (hx (v.name, ev v, σ v) (List.mem_append_left _
        (List.mem_map_of_mem (f := fun v : LpVar => (v.name, ev v, σ v)) hv))).symm⟩
    refine ⟨x, hd, ?_⟩
    have hx' : ∀ nc ∈ p.constraints, (sl nc).1.eval x = (sl nc).2 := fun nc hnc =>
      hx (nc.1, (sl nc).1, (sl nc).2) (List.mem_append_right _
        (List.mem_map_of_mem (f := fun nc : String × Constraint => (nc.1, (sl nc).1, (sl nc).2)) hnc))
    have : ∀ l : List (String × Constraint), ∀ ps, (∀ nc ∈ l, nc ∈ p.constraints) →
        List.Forall₂ (fun x y => bqmPenalty tr x = .ok y) l ps →
        List.Forall₂ (fun nc (pen : Penalty) => |pen.expr.eval x| = nc.2.excess σ) l ps := by
      intro l ps hl hf
      induction hf with
      | nil => exact .nil
      | cons h1 _ ih =>
        rw [List.forall_mem_cons] at hl
        exact .cons (hsl3 _ hl.1 _ h1 x hd (hx' _ hl.1)) (ih hl.2)
    exact this _ _ (fun _ h => h) hps'

/-- **C23.** If the conversion succeeds and the data are integers, the penalties correspond to the
constraints one by one, with the placeholder of their class; (1) every bit string stands for a point
in the domains and the penalty of each constraint violated there is at least 1; (2) every point in
the domains is given by some bit string for which the penalties of all constraints satisfied there
are 0. -/
theorem C23_penalties {p : Problem} {q : Qubo} (h : convertToPyqubo p = .ok q)
    (hi : IntegerData p) :
    (∀ x, ∃ σ, Decodes p x σ ∧ InDomains p σ ∧ List.Forall₂ (fun nc pen =>
      getPlaceholder nc.1 = .ok pen.placeholder ∧
      (¬ nc.2.Holds σ → 1 ≤ (pen.expr.eval x) ^ 2)) p.constraints q.penalties) ∧
    (GoodLabels p → ∀ σ, InDomains p σ → ∃ x, Decodes p x σ ∧ List.Forall₂ (fun nc pen =>
      nc.2.Holds σ → pen.expr.eval x = 0) p.constraints q.penalties) := by
  obtain ⟨h1, h2⟩ := C23_excess h hi
  refine ⟨fun x => ?_, fun hG σ hσ => ?_⟩
  · obtain ⟨σ, hd, hdom, hint, hf⟩ := h1 x
    refine ⟨σ, hd, hdom, hf.imp fun nc pen hp => ⟨hp.2.1, fun hv => ?_⟩⟩
    rw [← sq_abs]
    exact one_le_pow₀ ((excess_one hi hp.1 hint hv).trans hp.2.2)
  · obtain ⟨x, hd, hf⟩ := h2 hG σ hσ
    refine ⟨x, hd, hf.imp fun nc pen hp hh => ?_⟩
    rw [excess_zero.2 hh] at hp
    exact abs_eq_zero.1 hp

/-! ## C24 -/

/-- the penalty dictionary has a value for every class in use and for the objective -/
def Priced (q : Qubo) (pdict : Dict String ℚ) : Prop :=
  (∀ pen ∈ q.penalties, Dict.has pdict pen.placeholder = true) ∧ Dict.has pdict "objective" = true

/-- value of a key (0 if missing) -/
def price (pdict : Dict String ℚ) (k : String) : ℚ := (Dict.get? pdict k).getD 0

theorem energy_eq {p : Problem} {q : Qubo} (h : convertToPyqubo p = .ok q)
    {pdict : Dict String ℚ} (hp : Priced q pdict) {x : Bits} {σ : LpVar → ℚ}
    (hd : Decodes p x σ) :
    q.energy pdict x = .ok ((q.penalties.map fun pen =>
      price pdict pen.placeholder * (pen.expr.eval x) ^ 2).sum +
        price pdict "objective" * p.objective.eval σ) := by
  have hat : ∀ k, Dict.has pdict k = true → Dict.at! pdict k = .ok (price pdict k) := by
    intro k hk
    obtain ⟨w, hw⟩ := Option.isSome_iff_exists.1 hk
    rw [Dict.at!_ok.2 hw]
    simp [price, hw]
  unfold convertToPyqubo at h
  obtain ⟨tr, htr, h⟩ := bind_ok h
  obtain ⟨ps, hps, h⟩ := bind_ok h
  obtain ⟨o, ho, h⟩ := bind_ok h
  split at h
  · cases h
  cases h
  have T := bqmVars_ok htr
  unfold Qubo.energy
  rw [mapPy_of (g := fun pen => price pdict pen.placeholder * (pen.expr.eval x) ^ 2)
    fun pen hpen => by rw [hat _ (hp.1 pen hpen)]; rfl]
  simp only [bind, Except.bind]
  unfold bqmObjective at ho
  split at ho
  · rename_i h0
    cases ho
    simp [LinExpr.eval, h0.1, h0.2]
  · obtain ⟨e, he, ho⟩ := bind_ok ho
    cases ho
    simp only [hat _ hp.2]
    rw [bqmSum_eval T (fun t ht => obj_vars ht) he hd]
    rfl

/-- the penalty of a constraint with the given name -/
def classPrice (pdict : Dict String ℚ) (name : String) : ℚ := match getPlaceholder name with
  | .ok k => price pdict k
  | .error _ => 0

/-- the weighted objective, and for every constraint its penalty times the square of what it is violated by -/
def softCost (p : Problem) (pdict : Dict String ℚ) (σ : LpVar → ℚ) : ℚ :=
  (p.constraints.map fun nc => classPrice pdict nc.1 * (nc.2.excess σ) ^ 2).sum +
    price pdict "objective" * p.objective.eval σ

/-- **C24**, any penalties: the energy of a bit string is at least the cost of the point it stands for, and
for every point in the domains there is a bit string whose energy is equal to the cost. -/
theorem C24_soft {p : Problem} {q : Qubo} (h : convertToPyqubo p = .ok q) (hi : IntegerData p)
    (hG : GoodLabels p) {pdict : Dict String ℚ} (hp : Priced q pdict)
    (h0 : ∀ pen ∈ q.penalties, 0 ≤ price pdict pen.placeholder) :
    (∀ x σ, Decodes p x σ → ∃ E, q.energy pdict x = .ok E ∧ softCost p pdict σ ≤ E) ∧
    (∀ σ, InDomains p σ → ∃ x, Decodes p x σ ∧ q.energy pdict x = .ok (softCost p pdict σ)) := by
  obtain ⟨h1, h2⟩ := C23_excess h hi
  have hcl : ∀ {nc : String × Constraint} {pen : Penalty}, getPlaceholder nc.1 = .ok pen.placeholder →
      classPrice pdict nc.1 = price pdict pen.placeholder := fun e => by unfold classPrice; rw [e]
  obtain ⟨σ₀, -, -, -, hpl⟩ := h1 (fun _ => false)
  refine ⟨fun x σ hd => ?_, fun σ hσ => ?_⟩
  · refine ⟨_, energy_eq h hp hd, ?_⟩
    obtain ⟨σ', hd', -, -, hf⟩ := h1 x
    have hs : ∀ v ∈ p.vars, σ v = σ' v := fun v hv => by
      obtain ⟨e, he, q1⟩ := hd v hv
      obtain ⟨e', he', q2⟩ := hd' v hv
      rw [he] at he'
      cases he'
      rw [q1, q2]
    have hev : ∀ nc ∈ p.constraints, nc.2.excess σ = nc.2.excess σ' := by
      intro nc hnc
      have : nc.2.expr.eval σ = nc.2.expr.eval σ' := by
        unfold LinExpr.eval
        congr 2
        exact List.map_congr_left fun t ht => by rw [hs _ (term_vars hnc ht)]
      unfold Constraint.excess
      rw [this]
    unfold softCost
    refine add_le_add ?_ (le_refl _)
    have key : ∀ (l : List (String × Constraint)) (ps : List Penalty), (∀ pen ∈ ps, pen ∈ q.penalties) →
        List.Forall₂ (fun nc pen => nc ∈ p.constraints ∧ getPlaceholder nc.1 = .ok pen.placeholder ∧
          nc.2.excess σ' ≤ |pen.expr.eval x|) l ps →
        (l.map fun nc => classPrice pdict nc.1 * (nc.2.excess σ) ^ 2).sum ≤
          (ps.map fun pen => price pdict pen.placeholder * (pen.expr.eval x) ^ 2).sum := by
      intro l ps hl hf
      induction hf with
      | nil => simp
      | cons q1 _ ih =>
        rw [List.forall_mem_cons] at hl
        simp only [List.map_cons, List.sum_cons]
        refine add_le_add ?_ (ih hl.2)
        rw [hcl q1.2.1, hev _ q1.1, ← sq_abs (Penalty.expr _ |>.eval x)]
        exact mul_le_mul_of_nonneg_left (pow_le_pow_left₀ (excess_nonneg _) q1.2.2 2) (h0 _ hl.1)
    exact key _ _ (fun _ h => h) hf
  · obtain ⟨x, hd, hf⟩ := h2 hG σ hσ
    refine ⟨x, hd, ?_⟩
    rw [energy_eq h hp hd]
    unfold softCost
    congr 2
    have key : ∀ (l : List (String × Constraint)) (ps : List Penalty),
        List.Forall₂ (fun nc (pen : Penalty) => getPlaceholder nc.1 = .ok pen.placeholder) l ps →
        List.Forall₂ (fun nc pen => |pen.expr.eval x| = nc.2.excess σ) l ps →
        (ps.map fun pen => price pdict pen.placeholder * (pen.expr.eval x) ^ 2).sum =
        (l.map fun nc => classPrice pdict nc.1 * (nc.2.excess σ) ^ 2).sum := by
      intro l ps hp hf
      induction hf with
      | nil => rfl
      | cons q1 _ ih =>
        cases hp with
        | cons q2 hp =>
          simp only [List.map_cons, List.sum_cons]
          rw [ih hp, hcl q2, ← q1, sq_abs]
    exact key _ _ (hpl.imp fun _ _ h => h.2.1) hf

/-- the penalties are larger than any difference of weighted objectives -/
def Dominates (p : Problem) (q : Qubo) (pdict : Dict String ℚ) : Prop :=
  ∀ pen ∈ q.penalties, ∀ σ τ, InDomains p σ → InDomains p τ →
    price pdict "objective" * (p.objective.eval σ - p.objective.eval τ) < price pdict pen.placeholder

/-- the bit string has the least energy -/
def GroundState (q : Qubo) (pdict : Dict String ℚ) (x : Bits) : Prop :=
  ∃ E, q.energy pdict x = .ok E ∧ ∀ y E', q.energy pdict y = .ok E' → E ≤ E'

/-- `σ` is an optimal solution of the integer program -/
def IlpOptimal (p : Problem) (σ : LpVar → ℚ) : Prop :=
  IlpFeasible p σ ∧ ∀ τ, IlpFeasible p τ → p.objective.eval σ ≤ p.objective.eval τ

/-- the solution `τ` is better than every point whose objective is smaller by the penalty of a constraint -/
def Undercuts (p : Problem) (q : Qubo) (pdict : Dict String ℚ) (τ : LpVar → ℚ) : Prop :=
  ∀ pen ∈ q.penalties, 0 < price pdict pen.placeholder ∧ ∀ σ, InDomains p σ →
    price pdict "objective" * (p.objective.eval τ - p.objective.eval σ) < price pdict pen.placeholder

theorem softCost_feasible {p : Problem} {pdict : Dict String ℚ} {σ : LpVar → ℚ} (h : Satisfies p σ) :
    softCost p pdict σ = price pdict "objective" * p.objective.eval σ := by
  unfold softCost
  rw [List.sum_eq_zero, zero_add]
  intro a ha
  obtain ⟨nc, hnc, rfl⟩ := List.mem_map.1 ha
  rw [excess_zero.2 (h nc hnc)]
  ring

/-- **C24**, with a known solution: if every point of the domains that is not a solution costs more than
this solution, then the bit strings of least energy are those of the best solutions. -/
theorem C24_hard {p : Problem} {q : Qubo} (h : convertToPyqubo p = .ok q)
    (hi : IntegerData p) (hl : GoodLabels p) {pdict : Dict String ℚ} (hp : Priced q pdict)
    (h0 : ∀ pen ∈ q.penalties, 0 ≤ price pdict pen.placeholder)
    (hw : 0 < price pdict "objective") {τ₀ : LpVar → ℚ} (hτ₀ : IlpFeasible p τ₀)
    (hdom : ∀ σ, InDomains p σ → ¬ Satisfies p σ →
      price pdict "objective" * p.objective.eval τ₀ < softCost p pdict σ) :
    (∀ x σ, GroundState q pdict x → Decodes p x σ →
      IlpOptimal p σ ∧ q.energy pdict x = .ok (price pdict "objective" * p.objective.eval σ)) ∧
    (∀ σ, IlpOptimal p σ → ∃ x, Decodes p x σ ∧ GroundState q pdict x) := by
  obtain ⟨s1, s2⟩ := C24_soft h hi hl hp h0
  have hfree : ∀ τ, IlpFeasible p τ → ∃ y, Decodes p y τ ∧
      q.energy pdict y = .ok (price pdict "objective" * p.objective.eval τ) := fun τ ht => by
    obtain ⟨y, hy, e⟩ := s2 τ ht.1
    exact ⟨y, hy, by rw [e, softCost_feasible ht.2]⟩
  refine ⟨?_, ?_⟩
  · rintro x σ ⟨E, hE, hmin⟩ hd
    obtain ⟨E', hE', hle⟩ := s1 x σ hd
    rw [hE] at hE'
    cases hE'
    have hfeas : IlpFeasible p σ := by
      refine ⟨decodes_domain hd, ?_⟩
      by_contra hnot
      obtain ⟨y, _, hy⟩ := hfree τ₀ hτ₀
      have := hdom σ (decodes_domain hd) hnot
      have := hmin y _ hy
      linarith
    rw [softCost_feasible hfeas.2] at hle
    have hEeq : E = price pdict "objective" * p.objective.eval σ := by
      obtain ⟨y, _, hy⟩ := hfree σ hfeas
      exact le_antisymm (hmin y _ hy) hle
    refine ⟨⟨hfeas, fun τ' hτ' => ?_⟩, by rw [hE, hEeq]⟩
    obtain ⟨y', _, hy'⟩ := hfree τ' hτ'
    have := hmin y' _ hy'
    rw [hEeq] at this
    exact le_of_mul_le_mul_left this hw
  · rintro σ ⟨hf, hopt⟩
    obtain ⟨x, hx, hE⟩ := hfree σ hf
    refine ⟨x, hx, _, hE, fun y E' hE' => ?_⟩
    obtain ⟨σ', hd', -⟩ := (C23_excess h hi).1 y
    obtain ⟨E1, e1, hle⟩ := s1 y σ' hd'
    rw [hE'] at e1
    cases e1
    by_cases hf' : Satisfies p σ'
    · rw [softCost_feasible hf'] at hle
      exact (mul_le_mul_of_nonneg_left (hopt σ' ⟨decodes_domain hd', hf'⟩) hw.le).trans hle
    · have h4 := mul_le_mul_of_nonneg_left (hopt τ₀ hτ₀) hw.le
      have := hdom σ' (decodes_domain hd') hf'
      linarith

/-- **C24**, with a known solution: it is enough that the penalties exceed the difference of weighted
objectives between one known solution and the points of the domains. -/
theorem C24_known {p : Problem} {q : Qubo} (h : convertToPyqubo p = .ok q)
    (hi : IntegerData p) (hl : GoodLabels p) {pdict : Dict String ℚ} (hp : Priced q pdict)
    (hw : 0 < price pdict "objective") {τ₀ : LpVar → ℚ} (hτ₀ : IlpFeasible p τ₀)
    (hdom : Undercuts p q pdict τ₀) :
    (∀ x σ, GroundState q pdict x → Decodes p x σ →
      IlpOptimal p σ ∧ q.energy pdict x = .ok (price pdict "objective" * p.objective.eval σ)) ∧
    (∀ σ, IlpOptimal p σ → ∃ x, Decodes p x σ ∧ GroundState q pdict x) := by
  refine C24_hard h hi hl hp (fun pen hpen => (hdom pen hpen).1.le) hw hτ₀ fun σ hσ hnot => ?_
  obtain ⟨σ₀, -, -, -, hpl⟩ := (C23_excess h hi).1 (fun _ => false)
  have hint : ∀ v ∈ p.vars, ∃ n : ℤ, σ v = n := by
    obtain ⟨x, hd, -⟩ := (C23_excess h hi).2 hl σ hσ
    obtain ⟨σ', hd', -, hn, -⟩ := (C23_excess h hi).1 x
    intro v hv
    obtain ⟨e, he, q1⟩ := hd v hv
    obtain ⟨e', he', q2⟩ := hd' v hv
    rw [he] at he'
    cases he'
    rw [q1, ← q2]
    exact hn v hv
  have hcl : ∀ nc ∈ p.constraints, ∃ pen ∈ q.penalties, classPrice pdict nc.1 = price pdict pen.placeholder := by
    intro nc hnc
    obtain ⟨pen, hpen, -, e, -⟩ := forall₂_left hpl hnc
    exact ⟨pen, hpen, by unfold classPrice; rw [e]⟩
  unfold Satisfies at hnot
  push Not at hnot
  obtain ⟨nc, hnc, hv⟩ := hnot
  obtain ⟨pen, hpen, e⟩ := hcl nc hnc
  have h1 : classPrice pdict nc.1 * (nc.2.excess σ) ^ 2 ≤
      (p.constraints.map fun nc => classPrice pdict nc.1 * (nc.2.excess σ) ^ 2).sum := by
    apply List.single_le_sum
    · intro a ha
      obtain ⟨nc', hnc', rfl⟩ := List.mem_map.1 ha
      obtain ⟨pen', hpen', e'⟩ := hcl nc' hnc'
      simp only [e']
      exact mul_nonneg (hdom pen' hpen').1.le (sq_nonneg _)
    · exact List.mem_map.2 ⟨nc, hnc, rfl⟩
  have h2 : (1 : ℚ) ≤ (nc.2.excess σ) ^ 2 := one_le_pow₀ (excess_one hi hnc hint hv)
  have h3 := mul_le_mul_of_nonneg_left h2 (hdom pen hpen).1.le
  have h4 := (hdom pen hpen).2 σ hσ
  rw [e] at h1
  unfold softCost
  linarith

/-- **C24.** For integer data, clash-free names, a positive weight of the objective and dominating
penalties: if the integer program is feasible, every bit string of least energy stands for an
optimal solution and its energy is the weighted optimum. Conversely every optimal solution is given
by a bit string of least energy. -/
theorem C24_groundState {p : Problem} {q : Qubo} (h : convertToPyqubo p = .ok q)
    (hi : IntegerData p) (hl : GoodLabels p) {pdict : Dict String ℚ} (hp : Priced q pdict)
    (hw : 0 < price pdict "objective") (hdom : Dominates p q pdict) :
    (∀ x σ, GroundState q pdict x → Decodes p x σ → (∃ τ, IlpFeasible p τ) →
      IlpOptimal p σ ∧ q.energy pdict x = .ok (price pdict "objective" * p.objective.eval σ)) ∧
    (∀ σ, IlpOptimal p σ → ∃ x, Decodes p x σ ∧ GroundState q pdict x) := by
  have key : ∀ τ, IlpFeasible p τ → Undercuts p q pdict τ := by
    intro τ hτ pen hpen
    refine ⟨?_, fun σ hσ => hdom pen hpen τ σ hτ.1 hσ⟩
    have := hdom pen hpen τ τ hτ.1 hτ.1
    simpa using this
  refine ⟨?_, ?_⟩
  · rintro x σ hg hd ⟨τ, hτ⟩
    exact (C24_known h hi hl hp hw hτ (key τ hτ)).1 x σ hg hd
  · intro σ hσ
    exact (C24_known h hi hl hp hw hσ.1 (key σ hσ.1)).2 σ hσ

end Verif
