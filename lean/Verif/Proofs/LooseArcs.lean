import Verif.Proofs.PlanSum
import Verif.Proofs.LooseRules
import Verif.Proofs.LooseTree

/-!
# Inequalities between departures when rules are broken by little
-/

namespace Verif

namespace CodedNet

variable {N : CodedNet} {good : List (Nat × Nat)} {td : Trains} {t1 : String}
  {delays : List (Int × ℚ)} {dmax : Int} {sp : Special} {P : Plan}
  {bound : ℚ} {π : TablePlan} {e : Why → Int → Int → String → ℚ}

/-- by how much the rule is broken, for trains and stations by their positions -/
def slackAt (N : CodedNet) (P : Plan) (e : Why → Int → Int → String → ℚ) (w : Why) (k k' i : Nat) : ℚ :=
  e w (numberOf P k) (numberOf P k') (N.nameAt i)

section
variable {k k' i j : Nat}

theorem follows_loose (K : Planned N good td t1 delays dmax sp P)
    (R : LooseRules td N.stationTable N.pathTable t1 1 delays bound π e) {w w' : Int}
    (h : N.follows sp P k k' i = some (w, w')) :
    (N.firstAt P π k k' i ∧ N.depAt P π k i + w ≤ N.depAt P π k' i + N.slackAt P e .follow k k' i) ∨
    (N.firstAt P π k' k i ∧ N.depAt P π k' i + w' ≤ N.depAt P π k i + N.slackAt P e .follow k' k i) := by
  unfold follows at h
  split at h
  swap
  · cases h
  rename_i l l' hl hl'
  split at h
  swap
  · cases h
  rename_i hcond
  simp only [Bool.and_eq_true, Nat.beq_eq, decide_eq_true_eq] at hcond
  obtain ⟨⟨hu, hst⟩, hb⟩ := hcond
  obtain ⟨hne, -⟩ := unlike_spec K hu
  obtain ⟨c, its, pre, r, post, a, pre0, r0, post0, a0, rows, mid, f, V, V0, ht, hc, hw⟩ :=
    legOf_spec K hl
  obtain ⟨c', its', pre', r', post', a', pre0', r0', post0', a0', rows', mid', f', V', V0', ht', hc',
    hw'⟩ := legOf_spec K hl'
  rw [← hst] at hc'
  have hp : (mid.map N.tag).map (·.path) = (mid'.map N.tag).map (·.path) := by
    rw [tag_paths, tag_paths, ← hw.blocks, ← hw'.blocks, hb]
  have hk := headwayK_coded K V0.name V.name
  simp only [Option.some.injEq, Prod.mk.injEq] at h
  obtain ⟨rfl, rfl⟩ := h
  have key := R.following _ _ _ _ _ _ _ _ hne ht ht' hc hc' hp
  rw [hw.minutes, hw'.minutes, headway_tenths, headway_tenths, roundIf_tenths, roundIf_tenths, hk] at key
  exact key

theorem shares_loose (K : Planned N good td t1 delays dmax sp P)
    (R : LooseRules td N.stationTable N.pathTable t1 1 delays bound π e)
    (h : N.shares P k k' i = true) :
    (N.firstAt P π k k' i ∧ (N.goesOnAt P k i = true → ∀ a,
      StockComes td N.stationTable t1 1 delays π.dep (numberOf P k') (N.nameAt i) a →
      N.depAt P π k i ≤ a + N.slackAt P e .track k k' i)) ∨
    (N.firstAt P π k' k i ∧ (N.goesOnAt P k' i = true → ∀ a,
      StockComes td N.stationTable t1 1 delays π.dep (numberOf P k) (N.nameAt i) a →
      N.depAt P π k' i ≤ a + N.slackAt P e .track k' k i)) := by
  unfold shares at h
  split at h
  swap
  · cases h
  rename_i c its c' its' hk hk'
  simp only [Bool.and_eq_true] at h
  obtain ⟨⟨⟨⟨h7, h1⟩, h2⟩, h8⟩, g4⟩ := h
  obtain ⟨hne, hpair⟩ := unlike_spec K h7
  obtain ⟨x, pre, r, post, a, V⟩ := K.visit_of hk h1
  obtain ⟨x', pre', r', post', b, V'⟩ := K.visit_of hk' h2
  obtain rfl : x' = x := Option.some.inj (V'.name.symm.trans V.name)
  rw [V.item, V'.item] at g4
  simp only at g4
  split at g4
  swap
  · cases g4
  rename_i y z hy hz
  simp only [Bool.and_eq_true, Nat.beq_eq, decide_eq_true_eq] at g4
  obtain ⟨rfl, gb⟩ := g4
  have ey := V.track_eq hy
  have ez := V'.track_eq hz
  rw [V.name] at h8
  simp only [decide_eq_true_eq] at h8
  have e1 := V.nameAt
  have e2 := V.numberOf
  have e3 := V'.numberOf
  rw [e2, e3] at hne hpair
  have hs : ShareTrack td c.number c'.number x' (N.tag r) (N.tag r') := by
    refine ⟨hne, hpair, ⟨_, V.table K, by simp⟩, ⟨_, V'.table K, by simp⟩, V.station, V'.station, ?_, h8,
      ?_⟩
    · show nameOf N.names r.block = nameOf N.names r'.block
      rw [← ey, ← ez]
    · show nameOf N.names r.block ∉ _
      rw [← ey]
      exact gb
  unfold firstAt depAt slackAt
  rcases R.tracks _ _ _ _ _ hs with ⟨q1, q2⟩ | ⟨q1, q2⟩
  · left
    rw [e1, e2, e3]
    exact ⟨q1, fun hg => q2 (goesOnAt_spec K V hg)⟩
  · right
    rw [e1, e2, e3]
    exact ⟨q1, fun hg => q2 (goesOnAt_spec K V' hg)⟩

theorem crosses_loose (K : Planned N good td t1 delays dmax sp P)
    (R : LooseRules td N.stationTable N.pathTable t1 1 delays bound π e) {w : Int}
    (h : N.crosses P k k' i = some (j, w)) :
    (N.againstAt P π k k' i j ∧ N.depAt P π k i + 1 ≤ N.depAt P π k' j + w + N.slackAt P e .leave k k' i) ∨
    (N.againstAt P π k' k j i ∧ N.depAt P π k' j + w + 1 ≤ N.depAt P π k i + N.slackAt P e .come k' k i) := by
  unfold crosses at h
  split at h
  swap
  · cases h
  rename_i c its c' its' hk hk'
  rw [Option.ite_none_right_eq_some] at h
  obtain ⟨hcond, h⟩ := h
  simp only [Bool.and_eq_true] at hcond
  obtain ⟨⟨h7, h5⟩, h8⟩ := hcond
  obtain ⟨hne, hpair⟩ := unlike_spec K h7
  obtain ⟨c1, its1, pre, r, post, a, pre0, r0, post0, a0, rows, mid, l, f, V, V0, ht, hc, hw, rfl⟩ :=
    cameFrom_spec K h
  have h1 := V.sec.symm.trans hk'
  simp only [Option.some.injEq, Prod.mk.injEq] at h1
  obtain ⟨rfl, rfl⟩ := h1
  obtain ⟨h8, h8'⟩ := h8
  obtain ⟨m1, m2⟩ := clearOut_spec K hk V.name h8
  obtain ⟨-, m2'⟩ := clearIn_spec K hk' V.name h8'
  obtain ⟨z, hz, hz'⟩ := common_iff.1 h5
  obtain ⟨S, hS, hzS⟩ := outAt_spec K hk V.name hz
  obtain ⟨S', hS', hzS'⟩ := inAt_spec K hk' V.name hz'
  have e : numberOf P k = c.number := by
    unfold numberOf
    rw [hk]
  rw [← e] at hS
  rw [← V.train] at hS'
  rw [← e] at m2
  rw [← V.train] at m2'
  have hsh : ShareSwitch td N.pathTable (numberOf P k) (numberOf P k') (N.nameAt i) "out" "in" :=
    ⟨hne, hpair, m1, fun e => ⟨m2 e, m2' e⟩, S, S', z, hS, hS', hzS, hzS'⟩
  have key := R.cross _ _ _ _ _ _ hsh ht hc
  rw [hw.time] at key
  exact key

theorem departs_loose (K : Planned N good td t1 delays dmax sp P)
    (R : LooseRules td N.stationTable N.pathTable t1 1 delays bound π e)
    (h : N.departs P k k' i = true) :
    (N.firstAt P π k k' i ∧ N.depAt P π k i + 1 ≤ N.depAt P π k' i + N.slackAt P e .depart k k' i) ∨
    (N.firstAt P π k' k i ∧ N.depAt P π k' i + 1 ≤ N.depAt P π k i + N.slackAt P e .depart k' k i) := by
  unfold departs at h
  split at h
  swap
  · cases h
  rename_i c its c' its' hk hk'
  simp only [Bool.and_eq_true] at h
  obtain ⟨⟨h7, h5⟩, h8⟩ := h
  obtain ⟨hne, hpair⟩ := unlike_spec K h7
  obtain ⟨h8, h8'⟩ := h8
  obtain ⟨x, hx⟩ : ∃ x, N.stName i = some x := by
    cases hx : N.stName i with
    | some x => exact ⟨x, rfl⟩
    | none =>
      unfold clearOut at h8
      rw [hx] at h8
      cases h8
  obtain ⟨m1, m2⟩ := clearOut_spec K hk hx h8
  obtain ⟨-, m2'⟩ := clearOut_spec K hk' hx h8'
  obtain ⟨z, hz, hz'⟩ := common_iff.1 h5
  obtain ⟨S, hS, hzS⟩ := outAt_spec K hk hx hz
  obtain ⟨S', hS', hzS'⟩ := outAt_spec K hk' hx hz'
  have e : numberOf P k = c.number := by
    unfold numberOf
    rw [hk]
  have e' : numberOf P k' = c'.number := by
    unfold numberOf
    rw [hk']
  have ex : N.nameAt i = x := by
    unfold nameAt
    rw [hx]
    rfl
  rw [← e] at hS
  rw [← e'] at hS'
  rw [← e] at m2
  rw [← e'] at m2'
  have hsh : ShareSwitch td N.pathTable (numberOf P k) (numberOf P k') x "out" "out" :=
    ⟨hne, hpair, m1, fun e => ⟨m2 e, m2' e⟩, S, S', z, hS, hS', hzS, hzS'⟩
  have key := R.bothLeave _ _ _ hsh
  unfold firstAt depAt slackAt
  rw [ex]
  exact key

theorem handsTo_loose (K : Planned N good td t1 delays dmax sp P)
    (R : LooseRules td N.stationTable N.pathTable t1 1 delays bound π e) {w : Int}
    (h : N.handsTo P k k' i = some (j, w)) : 
    N.depAt P π k j + w ≤ N.depAt P π k' i + N.slackAt P e .stock k k' i := by
  unfold handsTo at h
  split at h
  swap
  · cases h
  rename_i c its c' its' hk hk'
  rw [Option.ite_none_right_eq_some] at h
  obtain ⟨hcond, h⟩ := h
  simp only [Bool.and_eq_true] at hcond
  split at h
  swap
  · cases h
  rename_i j' w' y hcf hy
  split at h
  swap
  · cases h
  rename_i v hv
  simp only [Option.some.injEq, Prod.mk.injEq] at h
  obtain ⟨rfl, rfl⟩ := h
  obtain ⟨c1, its1, pre, r, post, a1, pre0, r0, post0, a0, rows, mid, l, f1, V, V0, ht, hc, hw, rfl⟩ :=
    cameFrom_spec K hcf
  have h1 := V.sec.symm.trans hk
  simp only [Option.some.injEq, Prod.mk.injEq] at h1
  obtain ⟨rfl, rfl⟩ := h1
  have ho := (handsOn_coded K hk hk').2 ⟨hcond.1, i, isAt_iff.1 hcond.2, V.name⟩
  rw [← V.train] at ho
  have e' : numberOf P k' = c'.number := by
    unfold numberOf
    rw [hk']
  rw [← e'] at ho
  have ht' := K.table_of hk'
  rw [← e'] at ht'
  have key := R.stock _ _ _ _ _ _ _ _ _ ho ht ht' hc (by rw [List.head?_map, hy]; rfl) hv
  rw [hw.time] at key
  have hfl : ((v.floor : Int) : ℚ) ≤ v := Rat.floor_le v
  unfold depAt slackAt
  push_cast
  linarith

theorem runTo_loose (K : Planned N good td t1 delays dmax sp P)
    (R : LooseRules td N.stationTable N.pathTable t1 1 delays bound π e) {w : Int}
    (h : N.runTo P k i = some (j, w)) : 
    N.depAt P π k j + w ≤ N.depAt P π k i + N.slackAt P e .run k k i := by
  unfold runTo at h
  split at h
  swap
  · cases h
  rename_i c its hk
  split at h
  swap
  · cases h
  rename_i a ha
  split at h
  swap
  · cases h
  rename_i hgo
  split at h
  swap
  · cases h
  rename_i j' w' A rr B hcf hat
  simp only [Option.some.injEq, Prod.mk.injEq] at h
  obtain ⟨rfl, rfl⟩ := h
  obtain ⟨c1, its1, pre, r, post, a1, pre0, r0, post0, a0, rows, mid, l, f1, V, V0, ht, hc, hw, rfl⟩ :=
    cameFrom_spec K hcf
  have h1 := V.sec.symm.trans hk
  simp only [Option.some.injEq, Prod.mk.injEq] at h1
  obtain ⟨rfl, rfl⟩ := h1
  obtain rfl : a1 = a := Option.some.inj (V.item.symm.trans ha)
  obtain ⟨hsp, hix⟩ := atStation_some hat
  simp only at hsp hix
  have hmem : N.tag rr ∈ rows := by
    have e := ht.unique (V.table K)
    have e2 : (N.crows c1.rows).map N.tag = rows := by
      rw [e, V.split]
      simp
    rw [← e2, hsp]
    simp
  have hst : (N.tag rr).station = some (N.nameAt i) := by
    show N.station rr.block = _
    unfold station
    rw [hix]
    exact V.name
  have hrow := V.row_unique K ht hmem hst
  have hp : roundIf 1 ((N.tag rr).passingTime.getD 0) = (roundTenths (tenths rr.pass) : ℚ) := by
    have h2 : isTenths rr.pass = true := by
      have h3 := V.facts.tenth
      have h4 : (N.tag rr).passingTime = (N.tag r).passingTime := by rw [hrow]
      have h5 : rr.pass = r.pass := h4
      rw [h5]
      exact h3
    have : (N.tag rr).passingTime.getD 0 = (tenths rr.pass : ℚ) / 10 := tenths_eq h2
    rw [this, roundIf_tenths]
  have key := R.runs _ _ _ _ _ _ ht hc hmem hst (V.leaves K (V.post_of_go hgo))
  rw [hw.time, hp] at key
  unfold depAt slackAt
  push_cast
  linarith

theorem earlyAt_loose (K : Planned N good td t1 delays dmax sp P) (E : HasEarliest td t1 delays)
    (R : LooseRules td N.stationTable N.pathTable t1 1 delays bound π e) {e0 : Int}
    (h : N.earlyAt P k i = some e0) :
    (e0 : ℚ) ≤ N.depAt P π k i ∧ N.depAt P π k i ≤ e0 + bound := by
  unfold earlyAt at h
  split at h
  swap
  · cases h
  rename_i c its hk
  split at h
  swap
  · cases h
  rename_i a ha
  split at h
  swap
  · cases h
  rename_i hcond
  simp only [Bool.and_eq_true] at hcond
  cases h
  obtain ⟨x, pre, r, post, a1, V⟩ := K.visit_of hk hcond.2
  obtain rfl : a1 = a := Option.some.inj (V.item.symm.trans ha)
  have hl := V.leaves K (V.post_of_go hcond.1)
  obtain ⟨e1, he⟩ := E _ _ _ (V.table K) hl
  have := R.late _ _ _ _ (V.table K) hl he
  rw [Visit.early K (V.table K) he V] at this
  unfold depAt
  rw [V.nameAt, V.numberOf]
  exact this

theorem Choice.ok_loose {t1 : String} {delays : List (Int × ℚ)}
    (K : Planned N good td t1 delays dmax sp P)
    (R : LooseRules td N.stationTable N.pathTable t1 1 delays bound π e) {c : Choice}
    (h : c.ok N sp P = true) : c.yes N P π ∨ c.no N P π := by
  cases c with
  | first k k' i =>
    simp only [Choice.ok, Bool.or_eq_true] at h
    rcases h with (h | h) | h
    · obtain ⟨⟨w, w'⟩, h⟩ := Option.isSome_iff_exists.1 h
      rcases follows_loose K R h with q | q
      · exact .inl q.1
      · exact .inr q.1
    · rcases shares_loose K R h with q | q
      · exact .inl q.1
      · exact .inr q.1
    · rcases departs_loose K R h with q | q
      · exact .inl q.1
      · exact .inr q.1
  | against k k' i j =>
    simp only [Choice.ok, Bool.or_eq_true] at h
    rcases h with h | h
    · split at h
      swap
      · cases h
      rename_i j' w hc
      obtain rfl := Nat.eq_of_beq_eq_true h
      rcases crosses_loose K R hc with q | q
      · exact .inl q.1
      · exact .inr q.1
    · split at h
      swap
      · cases h
      rename_i i' w hc
      obtain rfl := Nat.eq_of_beq_eq_true h
      rcases crosses_loose K R hc with q | q
      · exact .inr q.1
      · exact .inl q.1

end

/-- the rule of an inequality: its kind, the train that goes first, the other one, and the station -/
def ruleOf (ns : List (Nat × Nat)) (cs : List Choice) (x : TimeArc) : Option (Nat × Nat × Nat) :=
  match x.why with
  | .low => none
  | .late => none
  | .track => match nodeAt ns x.src with
    | some (k, i) => match cs[(x.lit - 1) / 2]? with
      | some (.first m m' _) => some (k, if Nat.beq m k then m' else m, i)
      | _ => none
    | none => none
  | .leave => match nodeAt ns x.src, nodeAt ns x.dst with
    | some (k, i), some (k', _) => some (k, k', i)
    | _, _ => none
  | _ => match nodeAt ns x.src, nodeAt ns x.dst with
    | some (k, _), some (k', j) => some (k, k', j)
    | _, _ => none

/-- by how much the inequality fails at most -/
def slackOf (N : CodedNet) (P : Plan) (e : Why → Int → Int → String → ℚ) (ns : List (Nat × Nat))
    (cs : List Choice) (x : TimeArc) : ℚ := match ruleOf ns cs x with
  | some (k, k', i) => N.slackAt P e x.why k k' i
  | none => 0

section
variable {ns : List (Nat × Nat)} {cs : List Choice} {x : TimeArc}

theorem arcOK_loose (K : Planned N good td t1 delays dmax sp P) (E : HasEarliest td t1 delays)
    (R : LooseRules td N.stationTable N.pathTable t1 1 delays bound π e)
    (h : N.arcOK sp P ns cs x = true) (hc : x.lit = 0 ∨ caseOf N P π cs x.lit) :
    x.HoldsBy (timeOf N P π ns) bound (N.slackOf P e ns cs x) := by
  have z : timeOf N P π ns 0 = 0 := rfl
  unfold TimeArc.HoldsBy
  unfold arcOK at h
  split at h
  · rename_i hwhy
    simp only [Bool.and_eq_true, Nat.beq_eq, Bool.not_eq_true'] at h
    obtain ⟨⟨h1, h2⟩, h⟩ := h
    split at h
    swap
    · cases h
    rename_i k i hn
    split at h
    swap
    · cases h
    rename_i e0 he
    have h3 : (x.a : ℚ) ≤ e0 + x.b := by exact_mod_cast of_decide_eq_true h
    have h4 := (earlyAt_loose K E R he).1
    have hsl : N.slackOf P e ns cs x = 0 := by
      unfold slackOf ruleOf
      rw [hwhy]
    rw [h1, h2, hsl, nodeAt_spec hn, z]
    simp only [Bool.false_eq_true, if_false]
    linarith
  · rename_i hwhy
    simp only [Bool.and_eq_true, Nat.beq_eq] at h
    obtain ⟨⟨h1, h2⟩, h⟩ := h
    split at h
    swap
    · cases h
    rename_i k i hn
    split at h
    swap
    · cases h
    rename_i e0 he
    have h3 : (e0 : ℚ) + x.a ≤ x.b := by exact_mod_cast of_decide_eq_true h
    have h4 := (earlyAt_loose K E R he).2
    have hsl : N.slackOf P e ns cs x = 0 := by
      unfold slackOf ruleOf
      rw [hwhy]
    rw [h1, h2, hsl, nodeAt_spec hn, z]
    simp only [if_true]
    linarith
  · rename_i hwhy
    simp only [Bool.and_eq_true, Bool.not_eq_true'] at h
    obtain ⟨h2, h⟩ := h
    split at h
    swap
    · cases h
    rename_i k i k' j hn hn'
    simp only [Bool.and_eq_true, Nat.beq_eq] at h
    obtain ⟨rfl, h⟩ := h
    split at h
    swap
    · cases h
    rename_i i' w hr
    simp only [Bool.and_eq_true, Nat.beq_eq, decide_eq_true_eq] at h
    obtain ⟨rfl, h⟩ := h
    have h3 : (x.a : ℚ) ≤ w + x.b := by exact_mod_cast h
    have h4 := runTo_loose K R hr
    have hsl : N.slackOf P e ns cs x = N.slackAt P e .run k k j := by
      unfold slackOf ruleOf
      rw [hwhy]
      simp only [hn, hn']
    rw [h2, hsl, nodeAt_spec hn, nodeAt_spec hn']
    simp only [Bool.false_eq_true, if_false]
    linarith
  · rename_i hwhy
    simp only [Bool.and_eq_true, Bool.not_eq_true'] at h
    obtain ⟨⟨h2, h0⟩, h⟩ := h
    have h0 : x.lit ≠ 0 := by
      intro e
      rw [e] at h0
      cases h0
    split at h
    swap
    · cases h
    rename_i k i k' j hn hn'
    simp only [Bool.and_eq_true, Nat.beq_eq] at h
    obtain ⟨⟨rfl, hs⟩, h⟩ := h
    have hf := saysFirst_spec hs hc h0
    split at h
    swap
    · cases h
    rename_i w w' hr
    have h3 : (x.a : ℚ) ≤ w + x.b := by exact_mod_cast of_decide_eq_true h
    have hsl : N.slackOf P e ns cs x = N.slackAt P e .follow k k' i := by
      unfold slackOf ruleOf
      rw [hwhy]
      simp only [hn, hn']
    rw [h2, hsl, nodeAt_spec hn, nodeAt_spec hn']
    simp only [Bool.false_eq_true, if_false]
    rcases follows_loose K R hr with ⟨-, q⟩ | ⟨q, -⟩
    · linarith
    · exact absurd q (R.one _ _ _ hf)
  · rename_i hwhy
    simp only [Bool.and_eq_true, Bool.not_eq_true'] at h
    obtain ⟨⟨h2, h0⟩, h⟩ := h
    have h0 : x.lit ≠ 0 := by
      intro e
      rw [e] at h0
      cases h0
    split at h
    swap
    · cases h
    rename_i k i hn
    split at h
    swap
    · cases h
    rename_i m m' s hm
    have hsl : N.slackOf P e ns cs x = N.slackAt P e .track k (if Nat.beq m k = true then m' else m) i := by
      unfold slackOf ruleOf
      rw [hwhy]
      simp only [hn, hm]
    simp only [Bool.and_eq_true] at h
    generalize (if Nat.beq m k = true then m' else m) = k' at h hsl
    obtain ⟨⟨⟨hs, hsh⟩, hg⟩, h⟩ := h
    have hf := saysFirst_spec hs hc h0
    rw [h2, hsl, nodeAt_spec hn]
    simp only [Bool.false_eq_true, if_false]
    rcases shares_loose K R hsh with ⟨-, q⟩ | ⟨q, -⟩
    swap
    · exact absurd q (R.one _ _ _ hf)
    split at h
    · rename_i w hcb
      simp only [Bool.and_eq_true, Nat.beq_eq, decide_eq_true_eq] at h
      obtain ⟨e, h⟩ := h
      have h3 : (w : ℚ) + x.a ≤ x.b := by exact_mod_cast h
      have h4 := q hg _ (comesBy_spec K E hcb)
      have h5 : N.depOr P π k' none = 0 := rfl
      rw [h5] at h4
      rw [e, z]
      linarith
    · rename_i j w hcb
      split at h
      swap
      · cases h
      rename_i k2 j2 hn'
      simp only [Bool.and_eq_true, Nat.beq_eq, decide_eq_true_eq] at h
      obtain ⟨⟨rfl, rfl⟩, h⟩ := h
      have h3 : (w : ℚ) + x.a ≤ x.b := by exact_mod_cast h
      have h4 := q hg _ (comesBy_spec K E hcb)
      have h5 : N.depOr P π k2 (some j2) = N.depAt P π k2 j2 := rfl
      rw [h5] at h4
      rw [nodeAt_spec hn']
      linarith
    · split at h
      swap
      · cases h
      rename_i k2 j2 hn'
      split at h
      swap
      · cases h
      rename_i j w hbt
      simp only [Bool.and_eq_true, Nat.beq_eq, decide_eq_true_eq] at h
      obtain ⟨rfl, h⟩ := h
      have h3 : (w : ℚ) + x.a ≤ x.b := by exact_mod_cast h
      have h4 := q hg _ (bringsTo_spec K hbt)
      rw [nodeAt_spec hn']
      linarith
  · rename_i hwhy
    simp only [Bool.and_eq_true, Bool.not_eq_true'] at h
    obtain ⟨⟨h2, h0⟩, h⟩ := h
    have h0 : x.lit ≠ 0 := by
      intro e
      rw [e] at h0
      cases h0
    split at h
    swap
    · cases h
    rename_i k i k' j hn hn'
    simp only [Bool.and_eq_true] at h
    obtain ⟨hs, h⟩ := h
    have hf := saysAgainst_spec hs hc h0
    split at h
    swap
    · cases h
    rename_i j' w hr
    simp only [Bool.and_eq_true, Nat.beq_eq, decide_eq_true_eq] at h
    obtain ⟨rfl, h⟩ := h
    have h3 : (w : ℚ) + x.a ≤ 1 + x.b := by exact_mod_cast h
    have hsl : N.slackOf P e ns cs x = N.slackAt P e .leave k k' i := by
      unfold slackOf ruleOf
      rw [hwhy]
      simp only [hn, hn']
    rw [h2, hsl, nodeAt_spec hn, nodeAt_spec hn']
    simp only [Bool.false_eq_true, if_false]
    rcases crosses_loose K R hr with ⟨-, q⟩ | ⟨q, -⟩
    · linarith
    · exact absurd q (R.oneAgainst _ _ _ _ hf)
  · rename_i hwhy
    simp only [Bool.and_eq_true, Bool.not_eq_true'] at h
    obtain ⟨⟨h2, h0⟩, h⟩ := h
    have h0 : x.lit ≠ 0 := by
      intro e
      rw [e] at h0
      cases h0
    split at h
    swap
    · cases h
    rename_i k' j k i hn hn'
    simp only [Bool.and_eq_true] at h
    obtain ⟨hs, h⟩ := h
    have hf := saysAgainst_spec hs hc h0
    split at h
    swap
    · cases h
    rename_i j' w hr
    simp only [Bool.and_eq_true, Nat.beq_eq, decide_eq_true_eq] at h
    obtain ⟨rfl, h⟩ := h
    have h3 : (x.a : ℚ) ≤ w + 1 + x.b := by exact_mod_cast h
    have hsl : N.slackOf P e ns cs x = N.slackAt P e .come k' k i := by
      unfold slackOf ruleOf
      rw [hwhy]
      simp only [hn, hn']
    rw [h2, hsl, nodeAt_spec hn, nodeAt_spec hn']
    simp only [Bool.false_eq_true, if_false]
    rcases crosses_loose K R hr with ⟨q, -⟩ | ⟨-, q⟩
    · exact absurd q (R.oneAgainst _ _ _ _ hf)
    · linarith
  · rename_i hwhy
    simp only [Bool.and_eq_true, Bool.not_eq_true'] at h
    obtain ⟨⟨h2, h0⟩, h⟩ := h
    have h0 : x.lit ≠ 0 := by
      intro e
      rw [e] at h0
      cases h0
    split at h
    swap
    · cases h
    rename_i k i k' j hn hn'
    simp only [Bool.and_eq_true, Nat.beq_eq, decide_eq_true_eq] at h
    obtain ⟨⟨⟨rfl, hs⟩, hd⟩, h⟩ := h
    have hf := saysFirst_spec hs hc h0
    have h3 : (x.a : ℚ) ≤ 1 + x.b := by exact_mod_cast h
    have hsl : N.slackOf P e ns cs x = N.slackAt P e .depart k k' i := by
      unfold slackOf ruleOf
      rw [hwhy]
      simp only [hn, hn']
    rw [h2, hsl, nodeAt_spec hn, nodeAt_spec hn']
    simp only [Bool.false_eq_true, if_false]
    rcases departs_loose K R hd with ⟨-, q⟩ | ⟨q, -⟩
    · linarith
    · exact absurd q (R.one _ _ _ hf)
  · rename_i hwhy
    simp only [Bool.and_eq_true, Bool.not_eq_true'] at h
    obtain ⟨h2, h⟩ := h
    split at h
    swap
    · cases h
    rename_i k j k' i hn hn'
    split at h
    swap
    · cases h
    rename_i j' w hr
    simp only [Bool.and_eq_true, Nat.beq_eq, decide_eq_true_eq] at h
    obtain ⟨rfl, h⟩ := h
    have h3 : (x.a : ℚ) ≤ w + x.b := by exact_mod_cast h
    have h4 := handsTo_loose K R hr
    have hsl : N.slackOf P e ns cs x = N.slackAt P e .stock k k' i := by
      unfold slackOf ruleOf
      rw [hwhy]
      simp only [hn, hn']
    rw [h2, hsl, nodeAt_spec hn, nodeAt_spec hn']
    simp only [Bool.false_eq_true, if_false]
    linarith

end

end CodedNet

end Verif
