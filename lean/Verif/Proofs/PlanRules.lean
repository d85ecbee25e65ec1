import Verif.Proofs.PlanFacts

/-!
# Plans for coded sheets keep the rules of the tables
-/

namespace Verif

namespace CodedNet

variable {N : CodedNet} {good : List (Nat × Nat)} {td : Trains} {t1 : String}
  {delays : List (Int × ℚ)} {dmax : Int} {sp : Special} {P : Plan}

/-- the plan in terms of numbers of trains and names of stations; `goes` says which of two trains against
each other goes first -/
def tablePlanBy (N : CodedNet) (P : Plan) (goes : Item → Item → Bool) : TablePlan where
  dep := planDep N P
  first t t' x := ∃ a ∈ items P, ∃ b ∈ items P, (a.train : Int) = t ∧ (b.train : Int) = t' ∧
    N.stName a.st = some x ∧ N.stName b.st = some x ∧ before a b = true
  against t t' x x' := ∃ a ∈ items P, ∃ b ∈ items P, (a.train : Int) = t ∧ (b.train : Int) = t' ∧
    N.stName a.st = some x ∧ N.stName b.st = some x' ∧ goes a b = true
  enters t t' x := ∃ a ∈ items P, ∃ b ∈ items P, (a.train : Int) = t ∧ (b.train : Int) = t' ∧
    N.stName a.st = some x ∧ N.stName b.st = some x ∧ entersB a b = true

/-- the plan in terms of numbers of trains and names of stations -/
def tablePlan (N : CodedNet) (P : Plan) : TablePlan := tablePlanBy N P goesFirst

/-- Trains against each other. On a line one goes after the other; over a switch one is a minute after the
other, up to `e`. -/
structure GoesBy (N : CodedNet) (P : Plan) (goes : Item → Item → Bool)
    (e : String → Int → Int → String → String → ℚ) : Prop where
  asymm : ∀ a ∈ items P, ∀ b ∈ items P, goes a b = true → goes b a = false
  meets : ∀ a ∈ items P, ∀ b ∈ items P, meet a b = true → meet b a = true → a.train ≠ b.train →
    paired a.train b.train = false → ∀ l l', a.next = some l → b.next = some l' →
    (goes a b = true ∧ a.dep + l.run ≤ b.dep) ∨ (goes b a = true ∧ b.dep + l'.run ≤ a.dep)
  crosses : ∀ a ∈ items P, ∀ b ∈ items P, crossing a b = true → a.train ≠ b.train →
    paired a.train b.train = false → ∀ l x p, b.next = some l → N.stName a.st = some x →
    N.stName b.st = some p →
    (goes a b = true ∧ (a.dep : ℚ) + 1 ≤ b.dep + l.run + e x a.train b.train x p) ∨
    (goes b a = true ∧ (b.dep : ℚ) + l.run + 1 ≤ a.dep + e x b.train a.train p x)

theorem lexLt_asymm {u v : Int} {m n : Nat} (h : lexLt u v m n = true) : lexLt v u n m = false := by
  rw [← Bool.not_eq_true]
  unfold lexLt at *
  simp only [Bool.or_eq_true, Bool.and_eq_true, decide_eq_true_eq, Nat.blt_eq] at *
  omega

theorem lexLt_total {m n : Nat} (hne : m ≠ n) (u v : Int) :
    lexLt u v m n = true ∨ lexLt v u n m = true := by
  unfold lexLt
  simp only [Bool.or_eq_true, Bool.and_eq_true, decide_eq_true_eq, Nat.blt_eq]
  omega

theorem entersB_asymm {a b : Item} (h : entersB a b = true) : entersB b a = false := by
  unfold entersB at *
  split at h
  · rename_i p q hp hq
    rw [hp, hq]
    exact lexLt_asymm h
  · cases h

theorem goesFirst_asymm {a b : Item} (h : goesFirst a b = true) : goesFirst b a = false := by
  rw [← Bool.not_eq_true]
  unfold goesFirst at *
  simp only [Bool.and_eq_true, Bool.or_eq_true, Nat.blt_eq, Bool.not_eq_true'] at *
  rintro ⟨h1, h2⟩
  obtain ⟨h3, h4⟩ := h
  rcases h2 with h2 | ⟨h2, h2'⟩ <;> rcases h4 with h4 | ⟨h4, h4'⟩
  · omega
  · rw [h4'] at h1; cases h1
  · rw [h2'] at h3; cases h3
  · omega

theorem Planned.same_item (K : Planned N good td t1 delays dmax sp P) {a b : Item} {t : Int}
    {x : String} (ha : a ∈ items P) (hb : b ∈ items P) (h1 : (a.train : Int) = t)
    (h2 : (b.train : Int) = t) (h3 : N.stName a.st = some x) (h4 : N.stName b.st = some x) : a = b :=
  K.item_unique ha hb (by have := h1.trans h2.symm; exact_mod_cast this) (stName_inj K.net h3 h4)

theorem pair_sublist {α : Type} {a b : α} {l : List α} (h : [a, b].Sublist l) :
    ∃ i j : Nat, i < j ∧ l[i]? = some a ∧ l[j]? = some b := by
  induction l with
  | nil => cases h
  | cons c l ih =>
    cases h with
    | cons _ h =>
      obtain ⟨i, j, h1, h2, h3⟩ := ih h
      exact ⟨i + 1, j + 1, by omega, by simpa using h2, by simpa using h3⟩
    | cons_cons _ h =>
      obtain ⟨j, hj⟩ := List.mem_iff_getElem?.1 (List.singleton_sublist.1 h)
      exact ⟨0, j + 1, by omega, rfl, by simpa using hj⟩

section
variable {t t' : Int} {x x' p : String} {k k' : Nat} {c c' : CodedSection} {its its' : List Item}
  {pre pre' post post' : List CRow} {r r' : CRow} {i i' : Nat} {a a' b : Item}

theorem Visit.named (V : Visit N t1 delays dmax sp P t x k c its pre r post i a) :
    N.stName a.st = some x := by
  rw [V.st]; exact V.name

theorem Visit.firstOf (K : Planned N good td t1 delays dmax sp P)
    (V : Visit N t1 delays dmax sp P t x k c its pre r post i a)
    (V' : Visit N t1 delays dmax sp P t' x k' c' its' pre' r' post' i' a')
    {goes : Item → Item → Bool} (h : before a a' = true) : (tablePlanBy N P goes).first t t' x :=
  ⟨a, V.mem, a', V'.mem, (V.number K).1, (V'.number K).1, V.named, V'.named, h⟩

theorem Visit.entersOf (K : Planned N good td t1 delays dmax sp P)
    (V : Visit N t1 delays dmax sp P t x k c its pre r post i a)
    (V' : Visit N t1 delays dmax sp P t' x k' c' its' pre' r' post' i' a')
    {goes : Item → Item → Bool} (h : entersB a a' = true) : (tablePlanBy N P goes).enters t t' x :=
  ⟨a, V.mem, a', V'.mem, (V.number K).1, (V'.number K).1, V.named, V'.named, h⟩

theorem Visit.againstOf (K : Planned N good td t1 delays dmax sp P)
    (V : Visit N t1 delays dmax sp P t x k c its pre r post i a)
    (V' : Visit N t1 delays dmax sp P t' x' k' c' its' pre' r' post' i' a')
    {goes : Item → Item → Bool} (h : goes a a' = true) : (tablePlanBy N P goes).against t t' x x' :=
  ⟨a, V.mem, a', V'.mem, (V.number K).1, (V'.number K).1, V.named, V'.named, h⟩

theorem Visit.trains (K : Planned N good td t1 delays dmax sp P)
    (V : Visit N t1 delays dmax sp P t x k c its pre r post i a)
    (V' : Visit N t1 delays dmax sp P t' x' k' c' its' pre' r' post' i' a') (hne : t ≠ t') :
    a.train ≠ a'.train := by
  intro e
  apply hne
  rw [← (V.number K).1, ← (V'.number K).1, e]

theorem Visit.unpaired (K : Planned N good td t1 delays dmax sp P)
    (V : Visit N t1 delays dmax sp P t x k c its pre r post i a)
    (V' : Visit N t1 delays dmax sp P t' x' k' c' its' pre' r' post' i' a') (hne : ¬ Paired t t') :
    paired a.train a'.train = false := by
  rw [← Bool.not_eq_true]
  intro h
  unfold paired at h
  simp only [Bool.or_eq_true, Nat.beq_eq] at h
  apply hne
  unfold Paired
  rw [← (V.number K).1, ← (V'.number K).1]
  omega

theorem Visit.pair (K : Planned N good td t1 delays dmax sp P)
    (V : Visit N t1 delays dmax sp P t x k c its pre r post i a)
    (V' : Visit N t1 delays dmax sp P t' x k' c' its' pre' r' post' i' a') (hne : t ≠ t') :
    followingOK sp a a' = true ∧ tracksOK a a' = true ∧ orderOK (items P) a a' = true ∧
      switchOK a a' = true := by
  have h := K.ok.pairs a V.mem a' V'.mem
  unfold pairOK at h
  have e1 : a.st = a'.st := stName_inj K.net V.named V'.named
  have e2 := V.trains K V' hne
  rw [e1] at h
  simp only [Bool.or_eq_true, Bool.not_eq_true', Bool.and_eq_true, Nat.beq_eq] at h
  rcases h with (h | h) | h
  · exact absurd (Nat.beq_refl _) (by rw [h]; simp)
  · exact absurd h e2
  · exact ⟨h.1.1.1, h.1.1.2, h.1.2, h.2⟩

theorem Visit.before_total (K : Planned N good td t1 delays dmax sp P)
    (V : Visit N t1 delays dmax sp P t x k c its pre r post i a)
    (V' : Visit N t1 delays dmax sp P t' x' k' c' its' pre' r' post' i' a') (hne : t ≠ t') :
    before a a' = true ∨ before a' a = true :=
  lexLt_total (V.trains K V' hne) _ _

theorem before_asymm {a b : Item} (h : before a b = true) : before b a = false := lexLt_asymm h

/-- the train need not be waited for -/
theorem Visit.goesOn (K : Planned N good td t1 delays dmax sp P)
    (V : Visit N t1 delays dmax sp P t x k c its pre r post i a)
    (h : GoesOnFrom td N.stationTable t x) : a.free = false := by
  rw [← Bool.not_eq_true]
  intro hf
  obtain ⟨j, hj, hw⟩ := V.facts.free hf
  unfold lastStation at hj
  obtain ⟨b, hb, hs⟩ := Option.bind_eq_some_iff.1 hj
  obtain ⟨y, hy, hys⟩ := station_name hs
  obtain ⟨rows, q, ht, hl, hp⟩ := (lastBlock_coded K V.sec).2 ⟨b, hb, rfl⟩
  rw [← V.train] at ht
  refine h y ⟨rows, q, ht, hl, ?_⟩ (K.ok.special.within _ hw x V.name y hy)
  rw [hp, ← station_some K.net]
  exact hys

/-- trains with a common block share a track -/
theorem Planned.share (K : Planned N good td t1 delays dmax sp P) {q q' : Row}
    (h : ShareTrack td t t' x q q') :
    ∃ k c its pre r post i a k' c' its' pre' r' post' i' a',
      Visit N t1 delays dmax sp P t x k c its pre r post i a ∧
      Visit N t1 delays dmax sp P t' x k' c' its' pre' r' post' i' a' ∧
      shareTrack a a' = true ∧ shareTrack a' a = true := by
  obtain ⟨rows, ht, hq⟩ := h.row
  obtain ⟨rows', ht', hq'⟩ := h.row'
  obtain ⟨A, B, rfl⟩ := List.append_of_mem hq
  obtain ⟨A', B', rfl⟩ := List.append_of_mem hq'
  obtain ⟨k, c, its, pre, r, post, i, a, V, e1, e2, e3⟩ := K.visit ht h.here
  obtain ⟨k', c', its', pre', r', post', i', a', V', e1', e2', e3'⟩ := K.visit ht' h.here'
  have tr : ∀ {t k c its pre r post i a}, Visit N t1 delays dmax sp P t x k c its pre r post i a →
      q.path = nameOf N.names r.block → a.track = some r.block := by
    intro t k c its pre r post i a V e
    rcases V.facts.track with h1 | h1 | h1
    · exact h1
    · exfalso
      exact h.station (K.ok.special.quiet i h1 x V.name)
    · exfalso
      refine h.block ?_
      rw [e]
      exact K.ok.special.leftOut _ h1
  have p1 : q.path = nameOf N.names r.block := by rw [e2]; rfl
  have p2 : q.path = nameOf N.names r'.block := by rw [h.same, e2']; rfl
  have t1' := tr V p1
  have t2' := tr V' p2
  have eb : r.block = r'.block := K.net.names.inj (p1.symm.trans p2)
  refine ⟨k, c, its, pre, r, post, i, a, k', c', its', pre', r', post', i', a', V, V', ?_, ?_⟩
  · unfold shareTrack
    rw [t1', t2']
    simp only [eb, V.unpaired K V' h.stock, Bool.not_false, Bool.and_true]
    exact Nat.beq_refl _
  · unfold shareTrack
    rw [t1', t2']
    simp only [eb, V'.unpaired K V (fun e => h.stock (Or.symm e)), Bool.not_false, Bool.and_true]
    exact Nat.beq_refl _

/-- trains that leave over common switches -/
theorem Planned.visit_of_switches (K : Planned N good td t1 delays dmax sp P) {s : String}
    {table : List PathRow} {S : List Int} (h : SwitchesAt td table t x s S) :
    ∃ k c its pre r post i a, Visit N t1 delays dmax sp P t x k c its pre r post i a := by
  obtain ⟨rows, ht, ⟨-, A, q, B, hAB, hs, -⟩ | ⟨-, A, q, B, hAB, hs, -⟩⟩ := h
  · rw [hAB] at ht
    obtain ⟨k, c, its, pre, r, post, i, a, V, -⟩ := K.visit ht hs
    exact ⟨k, c, its, pre, r, post, i, a, V⟩
  · rw [hAB] at ht
    obtain ⟨k, c, its, pre, r, post, i, a, V, -⟩ := K.visit ht hs
    exact ⟨k, c, its, pre, r, post, i, a, V⟩

theorem Planned.shareOut (K : Planned N good td t1 delays dmax sp P)
    (h : ShareSwitch td N.pathTable t t' x "out" "out")
    (V : Visit N t1 delays dmax sp P t x k c its pre r post i a)
    (V' : Visit N t1 delays dmax sp P t' x k' c' its' pre' r' post' i' a') :
    shareOut a a' = true := by
  obtain ⟨S, S', z, h1, h2, h3, h4⟩ := h.common
  have z1 := V.outSwitch K h.station (fun e => (h.ko e).1) h1 h3
  have z2 := V'.outSwitch K h.station (fun e => (h.ko e).2) h2 h4
  unfold CodedNet.shareOut
  rw [V.unpaired K V' h.stock, common_iff.2 ⟨z, z1, z2⟩]
  rfl

theorem Planned.shareIn (K : Planned N good td t1 delays dmax sp P)
    (h : ShareSwitch td N.pathTable t t' x "in" "in")
    (V : Visit N t1 delays dmax sp P t x k c its pre r post i a)
    (V' : Visit N t1 delays dmax sp P t' x k' c' its' pre' r' post' i' a') :
    shareIn a a' = true := by
  obtain ⟨S, S', z, h1, h2, h3, h4⟩ := h.common
  have z1 := V.inSwitch K h.station (fun e => (h.ko e).1) h1 h3
  have z2 := V'.inSwitch K h.station (fun e => (h.ko e).2) h2 h4
  unfold CodedNet.shareIn
  rw [V.unpaired K V' h.stock, common_iff.2 ⟨z, z1, z2⟩]
  rfl

/-- the order in the list of trains -/
theorem Planned.listed (K : Planned N good td t1 delays dmax sp P)
    (h : [t, t'].Sublist (Dict.keys td))
    (V : Visit N t1 delays dmax sp P t x k c its pre r post i a)
    (V' : Visit N t1 delays dmax sp P t' x' k' c' its' pre' r' post' i' a') :
    Nat.blt a.pos a'.pos = true := by
  rw [K.coded.keys, List.map_map] at h
  obtain ⟨m, n, h1, h2, h3⟩ := pair_sublist h
  rw [List.getElem?_map] at h2 h3
  obtain ⟨⟨c1, its1⟩, hm, e1⟩ := Option.map_eq_some_iff.1 h2
  obtain ⟨⟨c2, its2⟩, hn, e2⟩ := Option.map_eq_some_iff.1 h3
  have k1 := K.numbers hm V.sec (by
    have : (c1.number : Int) = c.number := e1.trans V.train
    exact_mod_cast this)
  have k2 := K.numbers hn V'.sec (by
    have : (c2.number : Int) = c'.number := e2.trans V'.train
    exact_mod_cast this)
  rw [Nat.blt_eq, (V.number K).2, (V'.number K).2]
  omega

theorem sameWay_of {i0 i0' i i' : Nat} {mid mid' : List CRow} {r r' : CRow} {a0 b0 a b : Item}
    {l l' : Leg} {f f' : From} (H : Went N t1 i0 i mid r a0 a l f)
    (H' : Went N t1 i0' i' mid' r' b0 b l' f') :
    sameWay a b = true ↔ i0 = i0' ∧ mid.map (·.block) = mid'.map (·.block) := by
  unfold sameWay
  rw [H.prev, H'.prev]
  simp only [Bool.and_eq_true, Nat.beq_eq, decide_eq_true_eq, H.pst, H'.pst, H.pblocks, H'.pblocks]

theorem beforePrev_of {i0 i0' i i' : Nat} {mid mid' : List CRow} {r r' : CRow} {a0 b0 a b : Item}
    {l l' : Leg} {f f' : From} (H : Went N t1 i0 i mid r a0 a l f)
    (H' : Went N t1 i0' i' mid' r' b0 b l' f') (e : a.train = a0.train) (e' : b.train = b0.train) :
    beforePrev a b = before a0 b0 := by
  unfold beforePrev before
  rw [H.prev, H'.prev]
  simp only [H.rank, H'.rank, e, e']

/-- `k` of the headway -/
theorem headwayK_coded (K : Planned N good td t1 delays dmax sp P) {i j : Nat} {x y : String}
    (hx : N.stName i = some x) (hy : N.stName j = some y) :
    headwayK x y = if (hasPair sp.k1 i j || hasPair sp.k1 j i) = true then 1 else 2 := by
  have lt : ∀ {i : Nat} {x : String}, N.stName i = some x → i < N.stations.length := by
    intro i x h
    obtain ⟨e, he, -⟩ := stName_some.1 h
    exact (List.getElem?_eq_some_iff.1 he).1
  unfold headwayK
  have h1 := K.ok.special.k1 i (lt hx) j (lt hy) x hx y hy
  have h2 := K.ok.special.k1 j (lt hy) i (lt hx) y hy x hx
  simp only [Bool.or_eq_true, h1, h2]

end

section
variable {cat : Cat}

/-- a plan that passes the checks keeps the rules of the tables, except those of trains that leave and come
over one switch -/
theorem Planned.core (K : Planned N good td t1 delays dmax sp P) {goes : Item → Item → Bool}
    {ε : String → Int → Int → String → String → ℚ} (H : GoesBy N P goes ε) :
    TableRulesCore td N.stationTable N.pathTable t1 1 delays dmax cat (tablePlanBy N P goes) where
  one := by
    rintro t t' x ⟨a, ha, b, hb, h1, h2, h3, h4, h5⟩ ⟨b', hb', a', ha', h1', h2', h3', h4', h5'⟩
    obtain rfl := K.same_item ha ha' h1 h2' h3 h4'
    obtain rfl := K.same_item hb hb' h2 h1' h4 h3'
    rw [before_asymm h5] at h5'
    cases h5'
  oneAgainst := by
    rintro t t' x x' ⟨a, ha, b, hb, h1, h2, h3, h4, h5⟩ ⟨b', hb', a', ha', h1', h2', h3', h4', h5'⟩
    obtain rfl := K.same_item ha ha' h1 h2' h3 h4'
    obtain rfl := K.same_item hb hb' h2 h1' h4 h3'
    rw [H.asymm a ha b hb h5] at h5'
    cases h5'
  oneEnters := by
    rintro t t' x ⟨a, ha, b, hb, h1, h2, h3, h4, h5⟩ ⟨b', hb', a', ha', h1', h2', h3', h4', h5'⟩
    obtain rfl := K.same_item ha ha' h1 h2' h3 h4'
    obtain rfl := K.same_item hb hb' h2 h1' h4 h3'
    rw [entersB_asymm h5] at h5'
    cases h5'
  late := by
    rintro t x rows e ht ⟨row, rows', ht', hr, hs, hl⟩ he
    obtain rfl := ht'.unique ht
    obtain ⟨A, B, rfl⟩ := List.append_of_mem hr
    obtain ⟨k, c, its, pre, r, post, i, a, V, e1, e2, e3⟩ := K.visit ht hs
    have hg : a.go = true := by
      rw [V.facts.go]
      rintro rfl
      apply hl
      rw [e3]
      simp
    obtain ⟨h1, h2⟩ := V.facts.late hg
    have he' := Visit.early K ht he V
    show e ≤ planDep N P t x ∧ planDep N P t x ≤ e + dmax ∧ (cat = .integer → ∃ n : ℤ, planDep N P t x - e = n)
    rw [V.dep K, he']
    refine ⟨by exact_mod_cast h1, by exact_mod_cast h2, fun _ => ⟨a.dep - a.early, by push_cast; ring⟩⟩
  runs := by
    rintro t p x rows m q ht hc hq hs ⟨row, rows', ht', hr, hs', hl⟩
    obtain rfl := ht'.unique ht
    obtain ⟨k, c, its, pre0, r0, post0, i0, a0, pre, r, post, i, a, mid, l, f, V0, V, hlast, rfl, hw⟩ :=
      K.run ht hc
    have hqr := V.row_unique K ht hq hs
    have hrr := V.row_unique K ht hr hs'
    subst hqr
    have hg : a.go = true := by
      rw [V.facts.go]
      rintro rfl
      apply hl
      rw [ht.unique (V.table K), hrr]
      simp
    have hst := hw.stay hg
    show planDep N P t p + _ + _ ≤ planDep N P t x
    rw [V0.dep K, V.dep K, hw.time]
    have hp : roundIf 1 ((N.tag r).passingTime.getD 0) = (roundTenths (tenths r.pass) : ℚ) := by
      have : (N.tag r).passingTime.getD 0 = (tenths r.pass : ℚ) / 10 := tenths_eq V.facts.tenth
      rw [this, roundIf_tenths]
    rw [hp]
    rw [hw.arr] at hst
    exact_mod_cast hst
  stock := by
    intro t t' p x rows rows' m q v h1 h2 h3 h4 h5 h6
    exact K.stock h1 h2 h3 h4 h5 h6
  following := by
    intro t t' x x2 rows rows' m m' hne ht ht' hc hc' hp
    obtain ⟨k, c, its, pre0, r0, post0, i0, a0, pre, r, post, i, a, mid, l, f, V0, V, -, rfl, hw⟩ :=
      K.run ht hc
    obtain ⟨k', c', its', pre0', r0', post0', i0', a0', pre', r', post', i', a', mid', l', f', V0', V', -,
      rfl, hw'⟩ := K.run ht' hc'
    have ei : i = i' := stName_inj K.net V.name V'.name
    have ei0 : i0 = i0' := stName_inj K.net V0.name V0'.name
    subst ei ei0
    have hb := paths_inj K.net.names hp
    have hk := headwayK_coded K V0.name V.name
    have key : ∀ {a b : Item} {l l' : Leg} {t t' : Int}, a.next = some l → b.next = some l' →
        l.st = i → l'.st = i → a.st = i0 → l.blocks = l'.blocks →
        followingOK sp a b = true → before a b = true →
        (a.dep : ℚ) + roundIf 1 ((headwayOf (headwayK x x2) (minutes l.times)
          (minutes l'.times)).getD 0) ≤ b.dep := by
      intro a b l l' t t' h1 h2 h3 h4 h5 h6 h7 h8
      unfold followingOK at h7
      rw [h1, h2] at h7
      simp only [h3, h4, h6, h8, h5] at h7
      rw [headway_tenths, roundIf_tenths, hk]
      have hb : Nat.beq i i = true := Nat.beq_refl i
      rw [hb] at h7
      simp only [decide_true, Bool.and_self, Bool.not_true, Bool.false_or, decide_eq_true_eq] at h7
      exact_mod_cast h7
    have e1 : l.blocks = l'.blocks := by rw [hw.blocks, hw'.blocks, hb]
    rcases V0.before_total K V0' hne with h | h
    · left
      refine ⟨V0.firstOf K V0' h, ?_⟩
      show planDep N P t x + _ ≤ planDep N P t' x
      rw [V0.dep K, V0'.dep K, hw.minutes, hw'.minutes]
      exact key (t := t) (t' := t') hw.next hw'.next hw.st hw'.st V0.st e1 (V0.pair K V0' hne).1 h
    · right
      refine ⟨V0'.firstOf K V0 h, ?_⟩
      show planDep N P t' x + _ ≤ planDep N P t x
      rw [V0.dep K, V0'.dep K, hw.minutes, hw'.minutes]
      exact key (t := t) (t' := t') hw'.next hw.next hw'.st hw.st V0'.st e1.symm
        (V0'.pair K V0 (Ne.symm hne)).1 h
  opposite := by
    intro t t' x x2 rows rows' m m' hne ht ht' hc hc' hp hm
    obtain ⟨k, c, its, pre0, r0, post0, i0, a0, pre, r, post, i, a, mid, l, f, V0, V, -, rfl, hw⟩ :=
      K.run ht hc
    obtain ⟨k', c', its', pre0', r0', post0', i0', a0', pre', r', post', i', a', mid', l', f', V0', V', -,
      rfl, hw'⟩ := K.run ht' hc'
    have ei : i = i0' := stName_inj K.net V.name V0'.name
    have ei0 : i0 = i' := stName_inj K.net V0.name V'.name
    subst ei ei0
    have hb := paths_inj_reverse K.net.names hp
    have htt : t ≠ t' := by
      rintro rfl
      obtain rfl := ht.unique ht'
      exact consecutive_asymm (K.once ht) hc hc'
    have hmid : mid.map (·.block) ≠ [] := by
      intro e
      rw [List.map_eq_nil_iff] at e
      exact hm (by rw [e]; rfl)
    have m1 : meet a0 a0' = true := by
      unfold meet
      rw [hw.next, hw'.next]
      simp only [hw.st, hw'.st, V0.st, V0'.st, hw.blocks, hw'.blocks, ← hb, Bool.and_eq_true,
        decide_true, Bool.not_eq_true', List.isEmpty_eq_false_iff]
      exact ⟨⟨⟨Nat.beq_refl _, Nat.beq_refl _⟩, hmid⟩, trivial⟩
    have m2 : meet a0' a0 = true := by
      unfold meet
      rw [hw.next, hw'.next]
      simp only [hw.st, hw'.st, V0.st, V0'.st, hw.blocks, hw'.blocks, hb, List.reverse_reverse,
        Bool.and_eq_true, decide_true, Bool.not_eq_true', List.isEmpty_eq_false_iff]
      refine ⟨⟨⟨Nat.beq_refl _, Nat.beq_refl _⟩, ?_⟩, trivial⟩
      intro e
      rw [e] at hb
      exact hmid (by simpa using hb)
    show ((tablePlanBy N P goes).against t t' x x2 ∧ planDep N P t x + _ ≤ planDep N P t' x2) ∨
      ((tablePlanBy N P goes).against t' t x2 x ∧ planDep N P t' x2 + _ ≤ planDep N P t x)
    rw [V0.dep K, V0'.dep K, hw.time, hw'.time]
    rcases H.meets a0 V0.mem a0' V0'.mem m1 m2 (V0.trains K V0' htt) (V0.unpaired K V0' hne) _ _ hw.next
      hw'.next with ⟨h, h'⟩ | ⟨h, h'⟩
    · exact .inl ⟨V0.againstOf K V0' h, by exact_mod_cast h'⟩
    · exact .inr ⟨V0'.againstOf K V0 h, by exact_mod_cast h'⟩
  tracks := by
    intro t t' x q q' h
    obtain ⟨k, c, its, pre, r, post, i, a, k', c', its', pre', r', post', i', a', V, V', s1, s2⟩ :=
      K.share h
    have hne := h.other
    rcases V.before_total K V' hne with hb | hb
    · left
      refine ⟨V.firstOf K V' hb, fun hgo v hv => ?_⟩
      obtain ⟨z, hz, rfl⟩ := V'.stockComes K hv
      have := (V.pair K V' hne).2.1
      unfold tracksOK at this
      rw [s1, hb, V.goesOn K hgo] at this
      simp only [Bool.not_true, Bool.false_or, List.all_eq_true, decide_eq_true_eq] at this
      show planDep N P t x ≤ _
      rw [V.dep K]
      exact_mod_cast this z hz
    · right
      refine ⟨V'.firstOf K V hb, fun hgo v hv => ?_⟩
      obtain ⟨z, hz, rfl⟩ := V.stockComes K hv
      have := (V'.pair K V (Ne.symm hne)).2.1
      unfold tracksOK at this
      rw [s2, hb, V'.goesOn K hgo] at this
      simp only [Bool.not_true, Bool.false_or, List.all_eq_true, decide_eq_true_eq] at this
      show planDep N P t' x ≤ _
      rw [V'.dep K]
      exact_mod_cast this z hz
  order := by
    intro t t' p x q q' rows rows' m m' hsub h hgo ht ht' hc hc' hp
    obtain ⟨k, c, its, pre, r, post, i, a, k', c', its', pre', r', post', i', a', V, V', s1, s2⟩ :=
      K.share h
    obtain ⟨k0, c0, its0, pre0, r0, post0, i0, a0, pre1, r1, post1, i1, a1, mid, l, f, V0, V1, -, rfl, hw⟩ :=
      K.run ht hc
    obtain ⟨k0', c0', its0', pre0', r0', post0', i0', a0', pre1', r1', post1', i1', a1', mid', l', f', V0',
      V1', -, rfl, hw'⟩ := K.run ht' hc'
    obtain ⟨rfl, rfl, rfl, rfl, rfl⟩ := V1.same K V
    obtain ⟨rfl, rfl, rfl, rfl, rfl⟩ := V1'.same K V'
    have hne := h.other
    have ho := (V.pair K V' hne).2.2.1
    have hway : sameWay a1 a1' = true := (sameWay_of hw hw').2
      ⟨stName_inj K.net V0.name V0'.name, paths_inj K.net.names hp⟩
    unfold orderOK at ho
    rw [s1, V'.goesOn K hgo, K.listed hsub V V', hway] at ho
    simp only [Bool.not_true, Bool.false_or, Bool.and_eq_true, beq_iff_eq] at ho
    have e := ho.1
    rw [beforePrev_of hw hw' (by have := (V.number K).1.trans (V0.number K).1.symm; exact_mod_cast this)
      (by have := (V'.number K).1.trans (V0'.number K).1.symm; exact_mod_cast this)] at e
    rcases V.before_total K V' hne with hb | hb
    · exact .inl ⟨V.firstOf K V' hb, V0.firstOf K V0' (by rw [← e]; exact hb)⟩
    · right
      refine ⟨V'.firstOf K V hb, V0'.firstOf K V0 ?_⟩
      rcases V0.before_total K V0' hne with h0 | h0
      · rw [← e, before_asymm hb] at h0
        cases h0
      · exact h0
  orderBegins := by
    intro t t' p x q q' rows rows' m row' hsub h hgo ht ht' hc hf hcon
    obtain ⟨k, c, its, pre, r, post, i, a, k', c', its', pre', r', post', i', a', V, V', s1, s2⟩ :=
      K.share h
    obtain ⟨k0, c0, its0, pre0, r0, post0, i0, a0, pre1, r1, post1, i1, a1, mid, l, f, V0, V1, -, rfl, hw⟩ :=
      K.run ht hc
    obtain ⟨rfl, rfl, rfl, rfl, rfl⟩ := V1.same K V
    have hne := h.other
    have ho := (V.pair K V' hne).2.2.1
    have hpn := (V'.first K ht' hf).2.2
    unfold orderOK at ho
    rw [s1, V'.goesOn K hgo, K.listed hsub V V', hw.prev, hpn] at ho
    simp only [Bool.not_true, Bool.false_or, Bool.and_eq_true] at ho
    have ho2 := ho.2
    -- the second train at the station where the first one comes from
    have hb0 : ∃ k2 c2 its2 pre2 r2 post2 i2 b0,
        Visit N t1 delays dmax sp P t' p k2 c2 its2 pre2 r2 post2 i2 b0 ∧ contend a0 b0 = true := by
      rcases hcon with ⟨x2, ra, rb, ma, mb, ta, tb, ca, cb, hmm⟩ | ⟨qa, qb, hsh⟩ | hsw
      · obtain ⟨u1, u2, u3, u4, u5, u6, u7, u8, u9, u10, u11, u12, u13, u14, u15, u16, U0, U1, -, rfl, uw⟩ :=
          K.run ta ca
        obtain ⟨v1, v2, v3, v4, v5, v6, v7, v8, v9, v10, v11, v12, v13, v14, v15, v16, W0, W1, -, rfl, vw⟩ :=
          K.run tb cb
        obtain ⟨rfl, rfl, rfl, rfl, rfl⟩ := U0.same K V0
        refine ⟨_, _, _, _, _, _, _, v8, W0, ?_⟩
        unfold contend
        have : sameLeg u8 v8 = true := by
          unfold sameLeg
          rw [uw.next, vw.next]
          have e1 : u12 = v12 := stName_inj K.net U1.name W1.name
          simp only [uw.st, vw.st, uw.blocks, vw.blocks, e1, paths_inj K.net.names hmm, Bool.and_eq_true,
            decide_true, and_true]
          exact Nat.beq_refl _
        rw [this]
        rfl
      · obtain ⟨u1, u2, u3, u4, u5, u6, u7, u8, v1, v2, v3, v4, v5, v6, v7, v8, U, W, w1, -⟩ := K.share hsh
        obtain ⟨rfl, rfl, rfl, rfl, rfl⟩ := U.same K V0
        refine ⟨_, _, _, _, _, _, _, v8, W, ?_⟩
        unfold contend
        rw [w1]
        simp
      · obtain ⟨S, S', z, h1, h2, h3, h4⟩ := hsw.common
        obtain ⟨v1, v2, v3, v4, v5, v6, v7, v8, W⟩ := K.visit_of_switches h2
        refine ⟨_, _, _, _, _, _, _, v8, W, ?_⟩
        unfold contend
        rw [K.shareOut hsw V0 W]
        simp
    obtain ⟨k2, c2, its2, pre2, r2, post2, i2, b0, W, hcb⟩ := hb0
    have ib : b0.st = f.st := by
      rw [W.st, hw.pst]
      exact stName_inj K.net W.name V0.name
    have ia : a0.st = f.st := by rw [V0.st, hw.pst]
    have tb : b0.train = a'.train := by
      have := (W.number K).1.trans (V'.number K).1.symm
      exact_mod_cast this
    have ta : a0.train = a1.train := by
      have := (V0.number K).1.trans (V.number K).1.symm
      exact_mod_cast this
    rw [List.all_eq_true] at ho2
    have h2 := ho2 b0 W.mem
    rw [ib, tb] at h2
    have hr1 : Nat.beq f.st f.st = true := Nat.beq_refl _
    have hr2 : Nat.beq a'.train a'.train = true := Nat.beq_refl _
    have hr3 : Nat.beq a1.train a1.train = true := Nat.beq_refl _
    rw [hr1, hr2] at h2
    simp only [Bool.and_self, Bool.not_true, Bool.false_or, List.all_eq_true] at h2
    have h3 := h2 a0 V0.mem
    rw [ia, ta, hr1, hr3, hcb] at h3
    simp only [Bool.and_self, Bool.not_true, Bool.false_or, beq_iff_eq] at h3
    rcases V.before_total K V' hne with hb | hb
    · exact .inl ⟨V.firstOf K V' hb, V0.firstOf K W (by rw [← h3]; exact hb)⟩
    · right
      refine ⟨V'.firstOf K V hb, W.firstOf K V0 ?_⟩
      rcases V0.before_total K W hne with h0 | h0
      · rw [← h3, before_asymm hb] at h0
        cases h0
      · exact h0
  orderIn := by
    intro t t' p p' x q q' rows rows' m m' hsub h hgo ht ht' hc hc' hdiff hsw
    obtain ⟨k, c, its, pre, r, post, i, a, k', c', its', pre', r', post', i', a', V, V', s1, s2⟩ :=
      K.share h
    obtain ⟨k0, c0, its0, pre0, r0, post0, i0, a0, pre1, r1, post1, i1, a1, mid, l, f, V0, V1, -, rfl, hw⟩ :=
      K.run ht hc
    obtain ⟨k0', c0', its0', pre0', r0', post0', i0', a0', pre1', r1', post1', i1', a1', mid', l', f', V0',
      V1', -, rfl, hw'⟩ := K.run ht' hc'
    obtain ⟨rfl, rfl, rfl, rfl, rfl⟩ := V1.same K V
    obtain ⟨rfl, rfl, rfl, rfl, rfl⟩ := V1'.same K V'
    have hne := h.other
    have ho := (V.pair K V' hne).2.2.1
    have hway : sameWay a1 a1' = false := by
      rw [← Bool.not_eq_true, sameWay_of hw hw']
      rintro ⟨rfl, e2⟩
      have hpp : p = p' := by
        have := V0.name.symm.trans V0'.name
        exact Option.some.inj this
      refine hdiff hpp ?_
      rw [tag_paths, tag_paths, e2]
    unfold orderOK at ho
    rw [s1, V'.goesOn K hgo, K.listed hsub V V', hw.prev, hw'.prev, hway, K.shareIn hsw V V'] at ho
    simp only [Bool.not_true, Bool.not_false, Bool.false_or, Bool.true_or, Bool.true_and,
      beq_iff_eq] at ho
    have htot : entersB a1 a1' = true ∨ entersB a1' a1 = true := by
      unfold entersB
      rw [hw.prev, hw'.prev]
      exact lexLt_total (V.trains K V' hne) _ _
    rcases V.before_total K V' hne with hb | hb
    · exact .inl ⟨V.entersOf K V' (by rw [← ho]; exact hb), V.firstOf K V' hb⟩
    · right
      refine ⟨V'.entersOf K V ?_, V'.firstOf K V hb⟩
      rcases htot with h0 | h0
      · rw [← ho, before_asymm hb] at h0
        cases h0
      · exact h0
  bothLeave := by
    intro t t' x hsw
    obtain ⟨S, S', z, h1, h2, h3, h4⟩ := hsw.common
    obtain ⟨u1, u2, u3, u4, u5, u6, u7, a, V⟩ := K.visit_of_switches h1
    obtain ⟨v1, v2, v3, v4, v5, v6, v7, a', V'⟩ := K.visit_of_switches h2
    have s1 := K.shareOut hsw V V'
    have s2 := K.shareOut hsw.symm V' V
    show ((tablePlanBy N P goes).first t t' x ∧ planDep N P t x + 1 ≤ planDep N P t' x) ∨
      ((tablePlanBy N P goes).first t' t x ∧ planDep N P t' x + 1 ≤ planDep N P t x)
    rw [V.dep K, V'.dep K]
    rcases V.before_total K V' hsw.other with hb | hb
    · left
      refine ⟨V.firstOf K V' hb, ?_⟩
      have := (V.pair K V' hsw.other).2.2.2
      unfold switchOK at this
      rw [s1, hb, Bool.and_eq_true] at this
      simp only [Bool.not_true, Bool.false_or, decide_eq_true_eq] at this
      exact_mod_cast this.1
    · right
      refine ⟨V'.firstOf K V hb, ?_⟩
      have := (V'.pair K V (Ne.symm hsw.other)).2.2.2
      unfold switchOK at this
      rw [s2, hb, Bool.and_eq_true] at this
      simp only [Bool.not_true, Bool.false_or, decide_eq_true_eq] at this
      exact_mod_cast this.1
  bothCome := by
    intro t t' p x rows rows' m m' hsw ht ht' hc hc' hp
    obtain ⟨k, c, its, pre0, r0, post0, i0, a0, pre, r, post, i, a, mid, l, f, V0, V, -, rfl, hw⟩ :=
      K.run ht hc
    obtain ⟨k', c', its', pre0', r0', post0', i0', a0', pre', r', post', i', a', mid', l', f', V0', V', -,
      rfl, hw'⟩ := K.run ht' hc'
    have hne := hsw.other
    have s1 := K.shareIn hsw V V'
    have s2 := K.shareIn hsw.symm V' V
    have ei := stName_inj K.net V0.name V0'.name
    have eb := paths_inj K.net.names hp
    have w1 : sameWay a a' = true := (sameWay_of hw hw').2 ⟨ei, eb⟩
    have w2 : sameWay a' a = true := (sameWay_of hw' hw).2 ⟨ei.symm, eb.symm⟩
    have ta : a.train = a0.train := by
      have := (V.number K).1.trans (V0.number K).1.symm
      exact_mod_cast this
    have ta' : a'.train = a0'.train := by
      have := (V'.number K).1.trans (V0'.number K).1.symm
      exact_mod_cast this
    show ((tablePlanBy N P goes).first t t' p ∧ planDep N P t p + _ + 1 ≤ planDep N P t' p + _) ∨
      ((tablePlanBy N P goes).first t' t p ∧ planDep N P t' p + _ + 1 ≤ planDep N P t p + _)
    rw [V0.dep K, V0'.dep K, hw.time, hw'.time]
    rcases V0.before_total K V0' hne with hb | hb
    · left
      refine ⟨V0.firstOf K V0' hb, ?_⟩
      have := (V.pair K V' hne).2.2.2
      unfold switchOK at this
      rw [s1, w1, hw.prev, hw'.prev, beforePrev_of hw hw' ta ta', hb, Bool.and_eq_true] at this
      simp only [Bool.not_true, Bool.false_or, if_true, decide_eq_true_eq, hw.arr, hw'.arr] at this
      exact_mod_cast this.2
    · right
      refine ⟨V0'.firstOf K V0 hb, ?_⟩
      have := (V'.pair K V (Ne.symm hne)).2.2.2
      unfold switchOK at this
      rw [s2, w2, hw.prev, hw'.prev, beforePrev_of hw' hw ta' ta, hb, Bool.and_eq_true] at this
      simp only [Bool.not_true, Bool.false_or, if_true, decide_eq_true_eq, hw.arr, hw'.arr] at this
      exact_mod_cast this.2
  bothComeApart := by
    intro t t' p p' x rows rows' m m' hsw ht ht' hc hc' hdiff
    obtain ⟨k, c, its, pre0, r0, post0, i0, a0, pre, r, post, i, a, mid, l, f, V0, V, -, rfl, hw⟩ :=
      K.run ht hc
    obtain ⟨k', c', its', pre0', r0', post0', i0', a0', pre', r', post', i', a', mid', l', f', V0', V', -,
      rfl, hw'⟩ := K.run ht' hc'
    have hne := hsw.other
    have s1 := K.shareIn hsw V V'
    have s2 := K.shareIn hsw.symm V' V
    have hno : ¬ (i0 = i0' ∧ mid.map (·.block) = mid'.map (·.block)) := by
      rintro ⟨rfl, e2⟩
      have hpp : p = p' := Option.some.inj (V0.name.symm.trans V0'.name)
      exact hdiff hpp (by rw [tag_paths, tag_paths, e2])
    have w1 : sameWay a a' = false := by
      rw [← Bool.not_eq_true, sameWay_of hw hw']
      exact hno
    have w2 : sameWay a' a = false := by
      rw [← Bool.not_eq_true, sameWay_of hw' hw]
      exact fun e => hno ⟨e.1.symm, e.2.symm⟩
    have htot : entersB a a' = true ∨ entersB a' a = true := by
      unfold entersB
      rw [hw.prev, hw'.prev]
      exact lexLt_total (V.trains K V' hne) _ _
    show ((tablePlanBy N P goes).enters t t' x ∧ planDep N P t p + _ + 1 ≤ planDep N P t' p' + _) ∨
      ((tablePlanBy N P goes).enters t' t x ∧ planDep N P t' p' + _ + 1 ≤ planDep N P t p + _)
    rw [V0.dep K, V0'.dep K, hw.time, hw'.time]
    rcases htot with hb | hb
    · left
      refine ⟨V.entersOf K V' hb, ?_⟩
      have := (V.pair K V' hne).2.2.2
      unfold switchOK at this
      rw [s1, w1, hw.prev, hw'.prev, hb, Bool.and_eq_true] at this
      simp only [Bool.not_true, Bool.false_or, Bool.false_eq_true, if_false, decide_eq_true_eq, hw.arr,
        hw'.arr] at this
      exact_mod_cast this.2
    · right
      refine ⟨V'.entersOf K V hb, ?_⟩
      have := (V'.pair K V (Ne.symm hne)).2.2.2
      unfold switchOK at this
      rw [s2, w2, hw.prev, hw'.prev, hb, Bool.and_eq_true] at this
      simp only [Bool.not_true, Bool.false_or, Bool.false_eq_true, if_false, decide_eq_true_eq, hw.arr,
        hw'.arr] at this
      exact_mod_cast this.2

/-- trains that leave and come over one switch, up to `e` -/
theorem Planned.crossWithin (K : Planned N good td t1 delays dmax sp P) {goes : Item → Item → Bool}
    {ε : String → Int → Int → String → String → ℚ} (H : GoesBy N P goes ε) :
    CrossWithin td N.pathTable 1 (tablePlanBy N P goes) ε := by
  intro t t' p x rows m hsw ht hc
  obtain ⟨k, c, its, pre0, r0, post0, i0, b, pre, r, post, i, b1, mid, l, f, W, W1, -, rfl, hw⟩ :=
    K.run ht hc
  obtain ⟨S, S', z, h1, h2, h3, h4⟩ := hsw.common
  obtain ⟨u1, u2, u3, u4, u5, u6, u7, a, V⟩ := K.visit_of_switches h1
  have z1 := V.outSwitch K hsw.station (fun e => (hsw.ko e).1) h1 h3
  have z2 := W1.inSwitch K hsw.station (fun e => (hsw.ko e).2) h2 h4
  have ei : i = u7 := stName_inj K.net W1.name V.name
  have hcr : crossing a b = true := by
    unfold crossing
    rw [hw.next]
    simp only [hw.st, V.st, ei, Bool.and_eq_true]
    exact ⟨Nat.beq_refl _, common_iff.2 ⟨z, z1, by rw [hw.inS]; exact z2⟩⟩
  show ((tablePlanBy N P goes).against t t' x p ∧ planDep N P t x + 1 ≤ planDep N P t' p + _ + _) ∨
    ((tablePlanBy N P goes).against t' t p x ∧ planDep N P t' p + _ + 1 ≤ planDep N P t x + _)
  rw [V.dep K, W.dep K, hw.time, ← (V.number K).1, ← (W.number K).1]
  rcases H.crosses a V.mem b W.mem hcr (V.trains K W hsw.other) (V.unpaired K W hsw.stock) _ x p hw.next
    V.named W.named with ⟨h, h'⟩ | ⟨h, h'⟩
  · refine .inl ⟨?_, h'⟩
    rw [(V.number K).1, (W.number K).1]
    exact V.againstOf K W h
  · refine .inr ⟨?_, h'⟩
    rw [(V.number K).1, (W.number K).1]
    exact W.againstOf K V h

theorem goes_one {a b : Item} (hn : a.train ≠ b.train) (h : okFirst a b = true ∨ okFirst b a = true) :
    goesFirst a b = true ∨ goesFirst b a = true := by
  unfold goesFirst
  simp only [Bool.and_eq_true, Bool.or_eq_true, Nat.blt_eq, Bool.not_eq_true']
  rcases Nat.lt_or_gt_of_ne hn with q | q <;> cases h1 : okFirst a b <;>
    cases h2 : okFirst b a <;> simp_all

theorem goesFirst_meets {a b : Item} {l : Leg} (h : goesFirst a b = true) (m : meet a b = true)
    (hl : a.next = some l) : a.dep + l.run ≤ b.dep := by
  unfold goesFirst okFirst at h
  rw [m, hl] at h
  simp only [Bool.and_eq_true, Bool.not_true, Bool.false_or, decide_eq_true_eq] at h
  exact h.1.1.1

theorem goesFirst_crosses {a b : Item} {l : Leg} (m : crossing a b = true) (hl : b.next = some l) :
    (goesFirst a b = true → a.dep + 1 ≤ b.dep + l.run) ∧
    (goesFirst b a = true → b.dep + l.run + 1 ≤ a.dep) := by
  constructor <;> intro h <;> unfold goesFirst okFirst at h <;> rw [m, hl] at h <;>
    simp only [Bool.and_eq_true, Bool.not_true, Bool.false_or, decide_eq_true_eq] at h
  · exact h.1.1.2
  · exact h.1.2

theorem goesBy_first (ha : ∀ a ∈ items P, ∀ b ∈ items P, againstOK a b = true) :
    GoesBy N P goesFirst fun _ _ _ _ _ => 0 where
  asymm _ _ _ _ h := goesFirst_asymm h
  meets a h1 b h2 m m' hn hp l l' hl hl' := by
    have hag := ha a h1 b h2
    unfold againstOK at hag
    rw [m] at hag
    simp only [Bool.true_or, Bool.not_true, Bool.false_or, hp, Bool.or_false, Bool.or_eq_true,
      Nat.beq_eq, hn, false_or] at hag
    exact (goes_one hn hag).imp (fun h => ⟨h, goesFirst_meets h m hl⟩)
      (fun h => ⟨h, goesFirst_meets h m' hl'⟩)
  crosses a h1 b h2 m hn hp l x p hl _ _ := by
    have hag := ha a h1 b h2
    unfold againstOK at hag
    rw [m] at hag
    simp only [Bool.or_true, Bool.not_true, Bool.false_or, hp, Bool.or_false, Bool.or_eq_true,
      Nat.beq_eq, hn, false_or] at hag
    rw [add_zero, add_zero]
    exact (goes_one hn hag).imp (fun h => ⟨h, by exact_mod_cast (goesFirst_crosses m hl).1 h⟩)
      (fun h => ⟨h, by exact_mod_cast (goesFirst_crosses m hl).2 h⟩)

/-- **A plan that passes the checks keeps the rules of the tables.** -/
theorem Planned.rules (K : Planned N good td t1 delays dmax sp P)
    (ha : ∀ a ∈ items P, ∀ b ∈ items P, againstOK a b = true) :
    TableRules td N.stationTable N.pathTable t1 1 delays dmax cat (tablePlan N P) where
  toTableRulesCore := K.core (goesBy_first ha)
  cross t t' p x rows m hsw ht hc := by
    have := K.crossWithin (goesBy_first ha) t t' p x rows m hsw ht hc
    simp only [add_zero] at this
    exact this

end

end CodedNet

end Verif
