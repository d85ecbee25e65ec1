import Verif.Proofs.LooseArcs

/-!
# Sums of delays when rules are broken by little
-/

namespace Verif

deriving instance DecidableEq for Why

/-- at most one rule is broken -/
structure OneBroken (e : Why → Int → Int → String → ℚ) : Prop where
  low : ∀ t t' x, e .low t t' x ≤ 0
  one : ∀ w t t' x w' u u' y, 0 < e w t t' x → 0 < e w' u u' y → w = w' ∧ t = u ∧ t' = u' ∧ x = y

namespace CodedNet

variable {N : CodedNet} {good : List (Nat × Nat)} {td : Trains} {t1 : String}
  {delays : List (Int × ℚ)} {dmax : Int} {sp : Special} {P : Plan}
  {bound : ℚ} {π : TablePlan} {e : Why → Int → Int → String → ℚ}

/-- the kinds of rules by numbers -/
def whyOf : Nat → Why
  | 0 => .run
  | 1 => .follow
  | 2 => .track
  | 3 => .leave
  | 4 => .come
  | 5 => .depart
  | 6 => .stock
  | _ => .low

/-- the number of a kind of rules -/
def whyNum : Why → Nat
  | .run => 0
  | .follow => 1
  | .track => 2
  | .leave => 3
  | .come => 4
  | .depart => 5
  | .stock => 6
  | .low => 7
  | .late => 8

/-- by how much the rule with number `n` is broken -/
def slackCode (N : CodedNet) (P : Plan) (e : Why → Int → Int → String → ℚ) (n : Nat) : ℚ :=
  if n = 0 then 0
  else if (n - 1) / 1048576 < P.length ∧ (n - 1) / 4096 % 256 < P.length ∧
      (N.stName ((n - 1) / 16 % 256)).isSome then
    N.slackAt P e (whyOf ((n - 1) % 16)) ((n - 1) / 1048576) ((n - 1) / 4096 % 256) ((n - 1) / 16 % 256)
  else 0

/-- the number of the rule of an inequality -/
def keyOK (N : CodedNet) (P : Plan) (ns : List (Nat × Nat)) (cs : List Choice) (x : TimeArc) (n : Nat) :
    Bool := match ruleOf ns cs x with
  | none => Nat.beq n 0
  | some (k, k', i) => !Nat.beq n 0 && Nat.blt (whyNum x.why) 7 && Nat.beq ((n - 1) % 16) (whyNum x.why) &&
    Nat.beq ((n - 1) / 1048576) k && Nat.beq ((n - 1) / 4096 % 256) k' &&
    Nat.beq ((n - 1) / 16 % 256) i && Nat.blt k P.length && Nat.blt k' P.length && (N.stName i).isSome

theorem whyOf_num {w : Why} (h : whyNum w < 7) : whyOf (whyNum w) = w := by
  cases w <;> first | rfl | (exact absurd h (by decide))

theorem keyOK_spec {ns : List (Nat × Nat)} {cs : List Choice} {x : TimeArc} {n : Nat}
    (h : N.keyOK P ns cs x n = true) : N.slackCode P e n = N.slackOf P e ns cs x := by
  unfold keyOK at h
  unfold slackCode slackOf
  split at h
  · rename_i hr
    rw [Nat.eq_of_beq_eq_true h, hr]
    rfl
  · rename_i k k' i hr
    simp only [Bool.and_eq_true, Nat.beq_eq, Nat.blt_eq, Bool.not_eq_true'] at h
    obtain ⟨⟨⟨⟨⟨⟨⟨⟨h0, h1⟩, h2⟩, h3⟩, h4⟩, h5⟩, h6⟩, h7⟩, h8⟩ := h
    have h0 : n ≠ 0 := by
      rintro rfl
      cases h0
    rw [if_neg h0, h2, h3, h4, h5, if_pos ⟨h6, h7, h8⟩, hr, whyOf_num h1]

theorem slackCode_le (h : ∀ w t t' x, e w t t' x ≤ 1) {n : Nat} : N.slackCode P e n ≤ 1 := by
  unfold slackCode
  split
  · norm_num
  · split
    · exact h _ _ _ _
    · norm_num

theorem numberOf_inj (K : Planned N good td t1 delays dmax sp P) {k k' : Nat} (hk : k < P.length)
    (hk' : k' < P.length) (h : numberOf P k = numberOf P k') : k = k' := by
  have e1 := List.getElem?_eq_getElem hk
  have e2 := List.getElem?_eq_getElem hk'
  refine K.numbers e1 e2 ?_
  unfold numberOf at h
  rw [e1, e2] at h
  have h : ((P[k].1.number : Nat) : Int) = (P[k'].1.number : Nat) := h
  exact_mod_cast h

theorem whyOf_inj : ∀ a < 16, ∀ b < 16, whyOf a = whyOf b → whyOf a ≠ .low → a = b := by decide

theorem slackCode_one (K : Planned N good td t1 delays dmax sp P) (h : OneBroken e) {n n' : Nat}
    (h1 : 0 < N.slackCode P e n) (h2 : 0 < N.slackCode P e n') : n = n' := by
  unfold slackCode at h1 h2
  split at h1
  · exact absurd h1 (lt_irrefl _)
  split at h2
  · exact absurd h2 (lt_irrefl _)
  split at h1
  swap
  · exact absurd h1 (lt_irrefl _)
  split at h2
  swap
  · exact absurd h2 (lt_irrefl _)
  rename_i n0 n0' v v'
  obtain ⟨a1, a2, a3⟩ := v
  obtain ⟨b1, b2, b3⟩ := v'
  unfold slackAt at h1 h2
  obtain ⟨q1, q2, q3, q4⟩ := h.one _ _ _ _ _ _ _ _ h1 h2
  have hw : whyOf ((n - 1) % 16) ≠ .low := by
    intro e0
    rw [e0] at h1
    exact absurd h1 (not_lt.2 (h.low _ _ _))
  have c1 := whyOf_inj _ (Nat.mod_lt _ (by norm_num)) _ (Nat.mod_lt _ (by norm_num)) q1 hw
  have c2 := numberOf_inj K a1 b1 q2
  have c3 := numberOf_inj K a2 b2 q3
  have c4 : (n - 1) / 16 % 256 = (n' - 1) / 16 % 256 := by
    obtain ⟨y, hy⟩ := Option.isSome_iff_exists.1 a3
    obtain ⟨y', hy'⟩ := Option.isSome_iff_exists.1 b3
    unfold nameAt at q4
    rw [hy, hy'] at q4
    have q4 : y = y' := q4
    subst q4
    exact stName_inj K.net hy hy'
  omega

theorem holdsBy_shift {x : TimeArc} {δ : Nat → ℚ} {z s : ℚ} (h : x.HoldsBy δ bound s) :
    x.HoldsBy (fun n => δ n + z) bound s := by
  unfold TimeArc.HoldsBy at h ⊢
  linarith

/-- **A proof by cases that passes the checks bounds the sum of delays from below, also when rules are
broken by at most one.** -/
theorem Planned.loose_bound (K : Planned N good td t1 delays dmax sp P) (E : HasEarliest td t1 delays)
    (Ty : Typed td P) {z D : Nat}
    (R : LooseRules td N.stationTable N.pathTable t1 1 delays D π e)
    (he1 : ∀ w t t' x, e w t t' x ≤ 1)
    (hu : ∀ t c c', t ∈ Dict.keys td → CountedDelay td t1 1 delays π.dep t c →
      CountedDelay td t1 1 delays π.dep t c' → c = c')
    {ns : List (Nat × Nat)} {cs : List Choice} {arcs : KeyTree} {tree : LooseTree} {S : TimeTree} {B : Nat}
    (hu1 : tree.plain = true ∨ OneBroken e)
    (hA : (arcs.toList.all fun x => N.arcOK sp P ns cs x.1 && N.keyOK P ns cs x.1 x.2) = true)
    (hC : cs.all (Choice.ok N sp P) = true)
    (hS : N.startOK P ns z D S = true) (h : tree.check arcs B cs.length (.not []) [] S 0 = true) {ds : List ℚ}
    (hds : List.Forall₂ (CountedDelay td t1 1 delays π.dep) (Dict.keys td) ds) :
    (B : ℚ) ≤ 4 * ds.sum := by
  rw [List.all_eq_true] at hA hC
  unfold startOK at hS
  simp only [Bool.and_eq_true, List.all_eq_true] at hS
  obtain ⟨hS, hnd⟩ := hS
  have hlen : ds.length = P.length := by
    rw [← hds.length_eq, numbers_range K]
    simp
  have hkey : ∀ k < P.length, (Dict.keys td)[k]? = some (numberOf P k) := by
    intro k hk
    rw [numbers_range K, List.getElem?_map, List.getElem?_range hk]
    rfl
  have hcd : ∀ k < P.length, CountedDelay td t1 1 delays π.dep (numberOf P k) (ds.getD k 0) :=
    fun k hk => forall₂_getD hds (hkey k hk)
  have hpos : ∀ k < P.length, 0 ≤ 4 * ds.getD k 0 := by
    intro k hk
    obtain ⟨info, rows, ty, w, x, e, hg, hty, hw, hl, he, hc⟩ := hcd k hk
    rcases hc with ⟨-, hc⟩ | ⟨-, hc⟩
    · rw [hc, mul_zero]
    · obtain ⟨q1, -⟩ := R.late _ x rows e ⟨info, hg⟩ (hl.leaves K.data) he
      have hw0 : 0 ≤ w := by
        rcases hw with ⟨-, rfl⟩ | ⟨-, rfl⟩ | ⟨-, rfl⟩ <;> norm_num
      rw [hc]
      have := mul_nonneg hw0 (sub_nonneg.2 q1)
      linarith
  -- the times at the beginning
  have hx : ∀ x ∈ S.toList (fun n => n), ((x.2.1 : ℚ) ≤ timeOf N P π ns x.1 + z ∧
      timeOf N P π ns x.1 + z ≤ x.2.2.2) ∧
      (trainOf ns x = none → (x.2.2.1 : ℚ) * (timeOf N P π ns x.1 + z - x.2.1) = 0) ∧
      ∀ k, trainOf ns x = some k → k < P.length ∧
        (x.2.2.1 : ℚ) * (timeOf N P π ns x.1 + z - x.2.1) = 4 * ds.getD k 0 := by
    rintro ⟨n, lb, w, lim⟩ hx
    have hok := hS _ hx
    unfold boundsOK at hok
    simp only at hok ⊢
    split at hok
    · simp only [Bool.and_eq_true, Nat.beq_eq] at hok
      obtain ⟨⟨rfl, rfl⟩, hz⟩ := hok
      have hz : (lb : ℚ) ≤ lim := by exact_mod_cast Nat.le_of_ble_eq_true hz
      have h0 : timeOf N P π ns 0 = 0 := rfl
      rw [h0, zero_add]
      refine ⟨⟨le_refl _, hz⟩, fun _ => by simp, fun k hk => ?_⟩
      unfold trainOf at hk
      simp at hk
    · rename_i m
      split at hok
      swap
      · cases hok
      rename_i k i hn
      split at hok
      swap
      · cases hok
      rename_i e0 he
      simp only [Bool.and_eq_true, decide_eq_true_eq] at hok
      obtain ⟨⟨h1, h2⟩, h3⟩ := hok
      have hlb : (lb : ℚ) = e0 + z := by exact_mod_cast h1
      have hlim : (e0 : ℚ) + D + z ≤ lim := by exact_mod_cast h2
      obtain ⟨g1, g2⟩ := earlyAt_loose K E R he
      have hk : k < P.length := by
        unfold earlyAt at he
        split at he
        · rename_i hk
          exact (List.getElem?_eq_some_iff.1 hk).1
        · cases he
      rw [nodeAt_spec hn]
      refine ⟨⟨by linarith, by linarith⟩, fun ht => ?_, fun k' ht => ?_⟩
      · unfold trainOf at ht
        rw [hn] at ht
        simp only at ht
        split at ht
        · rename_i hw
          rw [Nat.eq_of_beq_eq_true hw]
          simp
        · cases ht
      · unfold trainOf at ht
        rw [hn] at ht
        simp only at ht
        split at ht
        · cases ht
        rename_i hw
        cases ht
        refine ⟨hk, ?_⟩
        rw [hw] at h3
        simp only at h3
        split at h3
        swap
        · cases h3
        rename_i i' w' e' hcnt
        simp only [Bool.and_eq_true, Nat.beq_eq] at h3
        obtain ⟨rfl, rfl⟩ := h3
        have hee : e' = e0 := by
          unfold countedAt at hcnt
          split at hcnt
          swap
          · cases hcnt
          split at hcnt
          swap
          · cases hcnt
          split at hcnt
          swap
          · cases hcnt
          rename_i i2 hi2 e2 w2 he2 hw2
          simp only [Option.some.injEq, Prod.mk.injEq] at hcnt
          obtain ⟨rfl, -, rfl⟩ := hcnt
          rw [he] at he2
          exact (Option.some.inj he2).symm
        subst hee
        have hc := counted_coded K E Ty hcnt π.dep
        rw [hu _ _ _ (List.mem_of_getElem? (hkey k hk)) (hcd k hk) hc, hlb]
        unfold depAt
        ring
  have hb := TimeTree.below_of (t := S) (f := fun n => n) (δ := fun n => timeOf N P π ns n + z) fun x h => (hx x h).1
  have hs := LooseTree.sound (δ := fun n => timeOf N P π ns n + z) (ℓ := caseOf N P π cs) (B := B)
    (bound := D) (sl := N.slackCode P e)
    (fun x hx hl => by
      have h0 := hA x hx
      rw [Bool.and_eq_true] at h0
      rw [keyOK_spec h0.2]
      exact holdsBy_shift (arcOK_loose K E R h0.1 hl))
    (fun n => slackCode_le he1) (le_of_eq rfl) (fun v hv => by
      have hm := List.getElem?_eq_getElem hv
      rcases Choice.ok_loose K R (hC _ (List.mem_of_getElem? hm)) with q | q
      · exact .inl ⟨v, _, hm, .inl ⟨rfl, q⟩⟩
      · exact .inr ⟨v, _, hm, .inr ⟨rfl, q⟩⟩) (m := .not []) (ctx := [])
    (hu1.imp id fun h => fun n n' => slackCode_one K h) (fun n => by
      unfold Broken.by
      split
      · rename_i e
        rw [Nat.eq_of_beq_eq_true e]
        exact le_of_eq (by simp [slackCode])
      · simpa using slackCode_le he1) (by simp) hb h
  rw [TimeTree.cost_eq (f := fun n => n) (δ := fun n => timeOf N P π ns n + z), sum_filterMap (T := trainOf ns) (g := fun k => 4 * ds.getD k 0)
    fun x h => ⟨(hx x h).2.1, fun k hk => ((hx x h).2.2 k hk).2⟩] at hs
  have hle := sum_le_range (nodupNat_nodup hnd) (n := P.length) (g := fun k => 4 * ds.getD k 0)
    (fun k hk => by
      obtain ⟨x, hxm, hxk⟩ := List.mem_filterMap.1 hk
      exact ((hx x hxm).2.2 k hxk).1) hpos
  have h4 : ((List.range P.length).map fun k => 4 * ds.getD k 0).sum = 4 * ds.sum := by
    rw [← sum_range_getD ds, hlen, ← List.sum_map_mul_left]
  rw [h4] at hle
  push_cast at hs
  linarith

end CodedNet

end Verif
