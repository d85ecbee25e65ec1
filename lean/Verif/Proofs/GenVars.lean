import Verif.Proofs.GenNames
import Verif.Proofs.OrderStored
import Verif.Proofs.Integral
import Verif.Props.PrintedSheet

/-!
# Names of variables and whole-minute times of generated problems
-/

namespace Verif

variable {td : Trains} {st : Stations} {table : List PathRow} {t1 : String} {r : Int}
  {ts : TrainSets} {tt : Timetable} {delays : List (Int × ℚ)} {dmax : ℚ} {cat : Cat} {b : Built}

/-! ## Order variables -/

/-- all stored order variables satisfy `C` -/
def StoredAll (C : OPath → LpVar → Prop) (y : OrderVars) : Prop := ∀ p v, findP y p = some v → C p v

theorem storedAll_add {C : OPath → LpVar → Prop} {y y' : OrderVars} {p q : OPath} {v : LpVar}
    (h : StoredAll C y) (ha : addOrder y p q v = .ok y') (hp : C p v) : StoredAll C y' := by
  obtain ⟨y'', h1, h2⟩ := addOrder_spec y p q v
  rw [ha] at h1; cases h1
  rcases h2 with ⟨rfl, -⟩ | ⟨-, -, hall⟩
  · exact h
  · intro p' v' hf
    rw [hall] at hf
    split at hf
    · rename_i e
      cases hf; subst e
      exact hp
    · exact h p' v' hf

/-- where the order variables come from -/
theorem orderVariables_all {C : OPath → LpVar → Prop} {y : OrderVars} (hy : orderVariables ts = .ok y)
    (ho : ∀ e ∈ ts.Josingle, ∀ p ∈ e.2, C (p.1, p.2, e.1.1, e.1.2) (zVar p.1 p.2 e.1.1 e.1.2))
    (hd : ∀ e ∈ ts.Jd, ∀ e2 ∈ e.2, ∀ g ∈ e2.2, ∀ j ∈ g, ∀ jp ∈ g,
      C (j, jp, oneStation, e.1) (yVar j jp e.1))
    (ht : ∀ e ∈ ts.Jtrack, ∀ g ∈ e.2, ∀ j ∈ g, ∀ jp ∈ g, C (j, jp, oneStation, e.1) (yVar j jp e.1))
    (hs : ∀ e ∈ ts.Jswitch, ∀ j a jp a', [(j, a), (jp, a')] ∈ e.2 → ∀ sp spp,
      departureStation4switches e.1 j [(j, a), (jp, a')] ts = .ok sp →
      departureStation4switches e.1 jp [(j, a), (jp, a')] ts = .ok spp →
      C (j, jp, oneStation, sp) (yVar j jp sp) ∧ C (j, jp, sp, spp) (zVar j jp sp spp) ∧
      C (inKey, j, jp, e.1) (zVar inKey j jp e.1)) : StoredAll C y := by
  unfold orderVariables at hy
  obtain ⟨y1, h1, hy⟩ := bind_ok hy
  obtain ⟨y2, h2, hy⟩ := bind_ok hy
  obtain ⟨y3, h3, hy⟩ := bind_ok hy
  have i0 : StoredAll C [] := fun _ _ h => by cases h
  have i1 : StoredAll C y1 := loop_inv h1 _ i0 fun e he a b ha hab =>
    loop_inv hab _ ha fun p hp a b ha hab => storedAll_add ha ((updateY4_eq .. ▸ hab)) (ho e he p hp)
  have i2 : StoredAll C y2 := loop_inv h2 _ i1 fun e he a b ha hab => loop_inv hab _ ha
    fun e2 he2 a b ha hab => loop_inv hab _ ha fun g hg a b ha hab => loop_inv hab _ ha
    fun p hp a b ha hab => storedAll_add ha ((updateY3_eq .. ▸ hab)) (hd e he e2 he2 g hg _ (mem_pairs hp).1 _ (mem_pairs hp).2)
  have i3 : StoredAll C y3 := loop_inv h3 _ i2 fun e he a b ha hab => loop_inv hab _ ha
    fun g hg a b ha hab => loop_inv hab _ ha
    fun p hp a b ha hab => storedAll_add ha ((updateY3_eq .. ▸ hab)) (ht e he g hg _ (mem_pairs hp).1 _ (mem_pairs hp).2)
  refine loop_inv hy _ i3 fun e he a b ha hab => loop_inv hab _ ha fun pair hp a b ha hab => ?_
  unfold orderVar4switchBody at hab
  split at hab
  · rename_i k x kp x'
    obtain ⟨sp, hsp, hab⟩ := bind_ok hab
    obtain ⟨spp, hspp, hab⟩ := bind_ok hab
    obtain ⟨c1, c2, c3⟩ := hs e he k x kp x' hp sp spp hsp hspp
    split at hab
    · split at hab
      · obtain ⟨mo, hmo, hab⟩ := bind_ok hab
        split at hab
        · exact storedAll_add ha ((updateY4in_eq .. ▸ hab)) c3
        · exact storedAll_add ha ((updateY3_eq .. ▸ hab)) c1
      · exact storedAll_add ha ((updateY3_eq .. ▸ hab)) c1
    · split at hab
      · exact storedAll_add ha ((updateY4_eq .. ▸ hab)) c2
      · exact storedAll_add ha ((updateY4in_eq .. ▸ hab)) c3
  · cases hab

/-- the order variables of generated problems: two trains and one or two stations -/
inductive Ordering : LpVar → Prop
  | one {j jp s : Val} : IsTrain j → IsTrain jp → IsStation s → Ordering (yVar j jp s)
  | two {j jp s sp : Val} : IsTrain j → IsTrain jp → IsStation s → IsStation sp →
      Ordering (zVar j jp s sp)
  | entry {j jp s : Val} : IsTrain j → IsTrain jp → IsStation s → Ordering (zVar inKey j jp s)

theorem Gen.ordering (g : Gen td st table t1 r ts tt) (hn : NamesClear td st) {y : OrderVars}
    (hy : Verif.orderVariables ts = Except.ok y) {a b c d : Val} {v : LpVar} (h : at4 y a b c d = .ok v) :
    Ordering v := by
  refine orderVariables_all (C := fun _ v => Ordering v) hy ?_ ?_ ?_ ?_ (a, b, c, d) v (at4_ok.1 h)
  · intro e he p hp
    obtain ⟨x, x2, t, t', hx, rfl, b, -, hr, hr'⟩ := g.josingle_mem he hp
    obtain ⟨k1, k2, k3⟩ := hr.clear hn g.data
    obtain ⟨k1', -, -⟩ := hr'.clear hn g.data
    rw [hx]
    exact .two k1 k1' k2 k3
  · intro e he e2 he2 gr hg j hj jp hjp
    obtain ⟨x, x2, l, hx, -, rfl, -, hall⟩ := g.jd_mem he he2 hg
    obtain ⟨t, ht, rfl⟩ := List.mem_map.1 hj
    obtain ⟨t', ht', rfl⟩ := List.mem_map.1 hjp
    obtain ⟨bl, hr⟩ := hall t ht
    obtain ⟨bl', hr'⟩ := hall t' ht'
    obtain ⟨k1, k2, k3⟩ := hr.clear hn g.data
    obtain ⟨k1', -, -⟩ := hr'.clear hn g.data
    rw [hx]
    exact .one k1 k1' k2
  · intro e he gr hg j hj jp hjp
    obtain ⟨x, l, hx, rfl, -, hserve⟩ := g.jtrack_mem he hg
    obtain ⟨t, ht, rfl⟩ := List.mem_map.1 hj
    obtain ⟨t', ht', rfl⟩ := List.mem_map.1 hjp
    obtain ⟨rows, h1, h2⟩ := hserve t ht
    obtain ⟨rows', h1', h2'⟩ := hserve t' ht'
    rw [hx]
    exact .one (hn.train h1) (hn.train h1') (hn.station g.data h1 h2)
  · intro e he j a jp a' hp sp spp hsp hspp
    obtain ⟨x, t, t', a1, a2, rows, rows', hx, heq, hs, ht, ht', ha, ha'⟩ := g.jswitch_mem he hp
    simp only [List.cons.injEq, Prod.mk.injEq, and_true] at heq
    obtain ⟨⟨rfl, rfl⟩, rfl, rfl⟩ := heq
    have hne := sublist_int_ne g.data.trains.keys hs
    obtain ⟨z, hz, hza⟩ := g.depStation ht ha (get?_pair_fst (t' := t') (a' := a'))
    obtain ⟨z', hz', hza'⟩ := g.depStation ht' ha' (get?_pair_snd (t := t) (a := a) hne)
    rw [hx, hz] at hsp; cases hsp
    rw [hx, hz'] at hspp; cases hspp
    have place : ∀ {t : Int} {rows : List Row} {a z : String}, TableOf td t rows →
        ((a = "out" ∧ z = x ∧ ∃ x1 mid, Consecutive rows x x1 mid) ∨
          (a = "in" ∧ ∃ mid, Consecutive rows z x mid)) →
        IsStation (.str x) ∧ IsStation (.str z) := by
      intro t rows a z ht hz
      rcases hz with ⟨-, rfl, x1, mid, hc⟩ | ⟨-, mid, hc⟩
      · have := hn.station g.data ht (consecutive_serves hc).1
        exact ⟨this, this⟩
      · exact ⟨hn.station g.data ht (consecutive_serves hc).2,
          hn.station g.data ht (consecutive_serves hc).1⟩
    obtain ⟨k1, k2⟩ := place ht hza
    obtain ⟨-, k3⟩ := place ht' hza'
    rw [hx]
    exact ⟨.one (hn.train ht) (hn.train ht') k2, .two (hn.train ht) (hn.train ht') k2 k3,
      .entry (hn.train ht) (hn.train ht') k1⟩

theorem legal_key4 {a b c d : Val} (ha : Legal a.render) (hb : Legal b.render) (hc : Legal c.render)
    (hd : Legal d.render) : Legal (key4 a b c d) := by
  have hu : Legal "_" := by decide
  unfold key4
  exact (((((ha.append hu).append hb).append hu).append hc).append hu).append hd

theorem legal_one : Legal oneStation.render := by decide
theorem legal_in : Legal inKey.render := by decide
theorem plain_in : Plain inKey := by decide

theorem train_ne_in {j : Val} (h : IsTrain j) : j.render ≠ inKey.render := by
  obtain ⟨n, rfl, h0⟩ := h
  intro he
  have he : Int.repr n = "in" := he
  rw [Int.repr_eq_if, if_pos h0] at he
  have := congrArg String.toList he
  rw [Nat.toList_repr] at this
  have hd : 'i' ∈ Nat.toDigits 10 n.toNat := by rw [this]; decide
  have := Nat.isDigit_of_mem_toDigits (by decide) (by decide) hd
  revert this; decide

theorem append_cancel_str {p a b : String} (h : p ++ a = p ++ b) : a = b := by
  have := congrArg String.toList h
  simp only [String.toList_append, List.append_cancel_left_eq] at this
  exact String.ext this

theorem zVar_name {a b c d : Val} (ha : Legal a.render) (hb : Legal b.render) (hc : Legal c.render)
    (hd : Legal d.render) : (zVar a b c d).name = "z_" ++ key4 a b c d :=
  sanitize_legal ((by decide : Legal "z_").append (legal_key4 ha hb hc hd))

theorem yVar_name {a b d : Val} (ha : Legal a.render) (hb : Legal b.render)
    (hd : Legal d.render) : (yVar a b d).name = "y_" ++ key4 a b oneStation d :=
  sanitize_legal ((by decide : Legal "y_").append (legal_key4 ha hb legal_one hd))

theorem key4_split {a b c d a' b' c' d' : Val} (ha : Plain a) (ha' : Plain a') (hb : Plain b)
    (hb' : Plain b') (h : key4 a b c d = key4 a' b' c' d') :
    a.render = a'.render ∧ b.render = b'.render ∧ key2 c d = key2 c' d' := by
  have h1 : key2 a (.str (key3 b c d)) = key2 a' (.str (key3 b' c' d')) := by
    simpa only [key4, key3, key2, Val.render, String.append_assoc] using h
  obtain ⟨e1, h2⟩ := C52_keys_partial.1 ha ha' h1
  have h2 : key2 b (.str (key2 c d)) = key2 b' (.str (key2 c' d')) := by
    simpa only [key3, key2, Val.render, String.append_assoc] using h2
  obtain ⟨e2, h3⟩ := C52_keys_partial.1 hb hb' h2
  exact ⟨e1, e2, h3⟩

/-- order variables with the same name are the same -/
theorem Ordering.inj {v w : LpVar} (hv : Ordering v) (hw : Ordering w) (h : v.name = w.name) :
    v = w := by
  have hyz : ∀ {a b : String}, "y_" ++ a ≠ "z_" ++ b := by
    intro a b he
    have := congrArg String.toList he
    rw [String.toList_append, String.toList_append] at this
    have h1 : "y_".toList = ['y', '_'] := by decide
    have h2 : "z_".toList = ['z', '_'] := by decide
    rw [h1, h2] at this
    simp at this
  cases hv with
  | one a1 a2 a3 =>
    rw [yVar_name a1.legal a2.legal a3.legal] at h
    cases hw with
    | one b1 b2 b3 =>
      rw [yVar_name b1.legal b2.legal b3.legal] at h
      obtain ⟨e1, e2, h3⟩ := key4_split a1.plain b1.plain a2.plain b2.plain (append_cancel_str h)
      have e3 := append_cancel_str h3
      rw [a1.eq b1 e1, a2.eq b2 e2, a3.eq b3 e3]
    | two b1 b2 b3 b4 =>
      rw [zVar_name b1.legal b2.legal b3.legal b4.legal] at h
      exact absurd h hyz
    | entry b1 b2 b3 =>
      rw [zVar_name legal_in b1.legal b2.legal b3.legal] at h
      exact absurd h hyz
  | two a1 a2 a3 a4 =>
    rw [zVar_name a1.legal a2.legal a3.legal a4.legal] at h
    cases hw with
    | one b1 b2 b3 =>
      rw [yVar_name b1.legal b2.legal b3.legal] at h
      exact absurd h.symm hyz
    | two b1 b2 b3 b4 =>
      rw [zVar_name b1.legal b2.legal b3.legal b4.legal] at h
      obtain ⟨e1, e2, e3, e4⟩ := C52_keys_partial.2.2 a1.plain b1.plain a2.plain b2.plain a3.plain
        b3.plain (append_cancel_str h)
      rw [a1.eq b1 e1, a2.eq b2 e2, a3.eq b3 e3, a4.eq b4 e4]
    | entry b1 b2 b3 =>
      rw [zVar_name legal_in b1.legal b2.legal b3.legal] at h
      obtain ⟨e1, -⟩ := key4_split a1.plain plain_in a2.plain b1.plain (append_cancel_str h)
      exact absurd e1 (train_ne_in a1)
  | entry a1 a2 a3 =>
    rw [zVar_name legal_in a1.legal a2.legal a3.legal] at h
    cases hw with
    | one b1 b2 b3 =>
      rw [yVar_name b1.legal b2.legal b3.legal] at h
      exact absurd h.symm hyz
    | two b1 b2 b3 b4 =>
      rw [zVar_name b1.legal b2.legal b3.legal b4.legal] at h
      obtain ⟨e1, -⟩ := key4_split plain_in b1.plain a1.plain b2.plain (append_cancel_str h)
      exact absurd e1.symm (train_ne_in b1)
    | entry b1 b2 b3 =>
      rw [zVar_name legal_in b1.legal b2.legal b3.legal] at h
      obtain ⟨-, e2, e3, e4⟩ := C52_keys_partial.2.2 plain_in plain_in a1.plain b1.plain a2.plain
        b2.plain (append_cancel_str h)
      rw [a1.eq b1 e2, a2.eq b2 e3, a3.eq b3 e4]

/-- different variables of a generated problem have different names -/
theorem varNames_generated (G : GoodData td st) (hn : NamesClear td st)
    (h : makeInput td st table t1 1 delays = .ok (ts, tt))
    (hb : buildProblem ts tt dmax cat = .ok b) :
    ∀ v ∈ b.prob.vars, ∀ w ∈ b.prob.vars, v.name = w.name → v = w := by
  have g := gen_of_input G h
  have hc := cleanNames_generated G hn h
  have P := parts hb
  have delay : ∀ {j s : Val} {v w : LpVar}, delayAt b.dv j s = .ok v → w ∈ b.prob.vars →
      v.name = w.name → v = w := by
    intro j s v w hv hw he
    have hv0 := hv
    rw [delayAt_ok, delayVariables_find P.hdv] at hv
    have hm : (j, s) ∈ Calls ts := mem_calls.2 ⟨hv.1.1, hv.1.2.1⟩
    obtain ⟨c1, c2⟩ := hc.clean _ hm
    have := found_is_delay hb hc hm hw (by rw [← he, hv.2, dVar_name c1 c2])
    rw [hv0] at this
    cases this; rfl
  intro v hv w hw he
  rcases vars_stored hb hv with ⟨j, s, h1⟩ | ⟨x, y, z, u, h1⟩
  · exact delay h1 hw he
  · rcases vars_stored hb hw with ⟨j, s, h2⟩ | ⟨x', y', z', u', h2⟩
    · exact (delay h2 hv he.symm).symm
    · exact (g.ordering hn P.hy h1).inj (g.ordering hn P.hy h2) he

/-! ## Whole minutes -/

/-- the turnaround times are whole minutes -/
def WholeTurnarounds (td : Trains) : Prop :=
  ∀ e ∈ td, ∀ row ∈ e.2.2, ∀ x, row.turnaround = some x → IsInt x

theorem dict_mem_set {K V : Type} [DecidableEq K] {d : Dict K V} {k : K} {v : V} {e : K × V}
    (h : e ∈ Dict.set d k v) : e = (k, v) ∨ e ∈ d := by
  induction d with
  | nil => exact .inl (by simpa [Dict.set] using h)
  | cons p d ih =>
    obtain ⟨a, b⟩ := p
    simp only [Dict.set] at h
    split at h
    · rename_i hk; subst hk
      rcases List.mem_cons.1 h with h | h
      · exact .inl h
      · exact .inr (List.mem_cons_of_mem _ h)
    · rcases List.mem_cons.1 h with h | h
      · exact .inr (h ▸ List.mem_cons_self)
      · rcases ih h with h | h
        · exact .inl h
        · exact .inr (List.mem_cons_of_mem _ h)

theorem intValues_set {d : Dict String ℚ} (h : IntValues d) (k : String) {v : ℚ} (hv : IsInt v) :
    IntValues (Dict.set d k v) := by
  intro e he
  rcases dict_mem_set he with rfl | he
  · exact hv
  · exact h e he

theorem intValues_nil : IntValues [] := fun _ h => by cases h

theorem intValues_update {d e : Dict String ℚ} (h : IntValues d) (h' : IntValues e) :
    IntValues (Dict.update d e) := by
  unfold Dict.update
  induction e generalizing d with
  | nil => exact h
  | cons x e ih =>
    exact ih (intValues_set h _ (h' x (by simp))) fun y hy => h' y (by simp [hy])

theorem calcTimeDiff_int {a b : String} {v : ℚ} (h : calcTimeDiff a b = .ok v) : IsInt v := by
  unfold calcTimeDiff at h
  obtain ⟨x, -, h⟩ := bind_ok h
  obtain ⟨y, -, h⟩ := bind_ok h
  simp only [Except.ok.injEq] at h
  subst h
  have hd : IsInt (((max x y : Nat) : ℚ) - ((min x y : Nat) : ℚ)) :=
    ⟨(max x y : Nat) - (min x y : Nat), by push_cast; rfl⟩
  split
  · exact hd.mul ⟨-1, by norm_num⟩
  · exact hd

theorem addDelay_int {ic : Dict String ℚ} (h : IntValues ic) (t : Int) {d : ℚ} (hd : IsInt d) :
    IntValues (addDelay ic t d) := by
  unfold addDelay
  refine intValues_update h fun e he => ?_
  obtain ⟨x, hx, rfl⟩ := List.mem_map.1 he
  exact (h x (List.mem_of_mem_filter hx)).add hd

theorem addDelays_int (hd : ∀ d ∈ delays, IsInt d.2) {ic : Dict String ℚ} (h : IntValues ic) :
    IntValues (delays.foldl (fun ic d => addDelay ic d.1 d.2) ic) := by
  induction delays generalizing ic with
  | nil => exact h
  | cons d ds ih =>
    exact ih (fun x hx => hd x (by simp [hx])) (addDelay_int h _ (hd d (by simp)))

/-- with whole turnaround times and delays all times of a generated problem are whole -/
theorem intTimes_generated (hw : WholeTurnarounds td) (hd : ∀ d ∈ delays, IsInt d.2)
    (h : makeInput td st table t1 1 delays = .ok (ts, tt)) : IntTimes tt := by
  unfold makeInput at h
  obtain ⟨skip, -, h⟩ := bind_ok h
  obtain ⟨ts', -, h⟩ := bind_ok h
  obtain ⟨taus, htaus, h⟩ := bind_ok h
  obtain ⟨tt', htt, h⟩ := bind_ok h
  simp only [Except.ok.injEq, Prod.mk.injEq] at h
  obtain ⟨-, rfl⟩ := h
  unfold makeTaus at htaus
  obtain ⟨pass, hpass, htaus⟩ := bind_ok htaus
  obtain ⟨hwy, hhwy, htaus⟩ := bind_ok htaus
  obtain ⟨prep, hprep, htaus⟩ := bind_ok htaus
  obtain ⟨sp, hsp, htaus⟩ := bind_ok htaus
  cases htaus
  unfold makeTimetable at htt
  obtain ⟨ic, hic, htt⟩ := bind_ok htt
  obtain ⟨pw, -, htt⟩ := bind_ok htt
  obtain ⟨sched, hsched, htt⟩ := bind_ok htt
  cases htt
  have k1 : IntValues pass := by
    unfold getTausPass at hpass
    refine loop_inv hpass _ intValues_nil fun e _ a c ha hac => loop_inv hac _ ha fun s _ a c ha hac => ?_
    split at hac
    · cases hac; exact ha
    · obtain ⟨t, ht, hac⟩ := bind_ok hac
      cases hac
      refine intValues_set ha _ ?_
      unfold minimalPassingTime at ht
      split at ht
      · cases ht
      · obtain ⟨l, -, ht⟩ := bind_ok ht
        cases ht
        exact roundIf_int _
  have k2 : IntValues hwy := by
    unfold getTausHeadway at hhwy
    obtain ⟨d, -, hhwy⟩ := bind_ok hhwy
    refine loop_inv hhwy _ intValues_nil fun s _ a c ha hac => ?_
    obtain ⟨g, -, hac⟩ := bind_ok hac
    refine loop_inv hac _ ha fun e _ a c ha hac => loop_inv hac _ ha fun p _ a c ha hac => ?_
    obtain ⟨x, -, hac⟩ := bind_ok hac
    obtain ⟨y, -, hac⟩ := bind_ok hac
    obtain ⟨hh, hhh, hac⟩ := bind_ok hac
    cases hac
    refine intValues_set ha _ ?_
    unfold headwayTime at hhh
    obtain ⟨l, -, hhh⟩ := bind_ok hhh
    obtain ⟨l', -, hhh⟩ := bind_ok hhh
    cases hhh
    exact roundIf_int _
  have k3 : IntValues prep := by
    unfold getTausPrep at hprep
    refine loop_inv hprep _ intValues_nil fun e _ a c ha hac => ?_
    obtain ⟨s, -, hac⟩ := bind_ok hac
    obtain ⟨t, ht, hac⟩ := bind_ok hac
    split at hac
    · cases hac
      refine intValues_set ha _ ?_
      unfold turnAroundTime at ht
      obtain ⟨l, -, ht⟩ := bind_ok ht
      obtain ⟨l', -, ht⟩ := bind_ok ht
      obtain ⟨l'', -, ht⟩ := bind_ok ht
      cases ht
      exact roundIf_int _
    · cases hac; exact ha
  have k4 : IntValues sp.1 ∧ IntValues sp.2 := by
    unfold getTausStop at hsp
    obtain ⟨acc, hacc, hsp⟩ := bind_ok hsp
    cases hsp
    refine loop_inv hacc (fun a => IntValues a.stop ∧ IntValues a.prep) ⟨intValues_nil, intValues_nil⟩
      fun e he a c ha hac => loop_inv hac (fun a : StopState => IntValues a.stop ∧ IntValues a.prep) ha
        fun x _ a c ha hac => ?_
    unfold tausStopStep at hac
    obtain ⟨sk, -, hac⟩ := bind_ok hac
    split at hac
    · cases hac; exact ha
    · obtain ⟨m, hm, hac⟩ := bind_ok hac
      cases hac
      have hm' : IsInt m.1 ∧ IntValues m.2 := by
        generalize (if x.2 = 0 then true else a.first) = fs at hm
        unfold minimalStayTime at hm
        obtain ⟨bs, -, hm⟩ := bind_ok hm
        obtain ⟨bl, -, hm⟩ := bind_ok hm
        obtain ⟨row, hrow, hm⟩ := bind_ok hm
        obtain ⟨l, -, hm⟩ := bind_ok hm
        have hrow' : row ∈ e.2.2 := List.mem_of_mem_filter (nth_mem hrow)
        split at hm
        · rename_i ta hta
          split at hm
          · cases hm
            refine ⟨roundIf_int _, fun z hz => ?_⟩
            rw [List.mem_singleton] at hz
            subst hz
            exact hw e he row hrow' ta hta
          · cases hm
            exact ⟨roundIf_int _, intValues_nil⟩
        · cases hm
          exact ⟨roundIf_int _, intValues_nil⟩
      exact ⟨intValues_set ha.1 _ hm'.1, intValues_update ha.2 hm'.2⟩
  have k5 : IntValues ic := by
    unfold getInitialConditions at hic
    refine loop_inv hic _ intValues_nil fun e _ a c ha hac => ?_
    obtain ⟨row, -, hac⟩ := bind_ok hac
    simp only at hac
    obtain ⟨t, ht, hac⟩ := bind_ok hac
    cases hac
    refine intValues_set ha _ ?_
    split at ht
    · cases ht; exact isInt_zero
    · exact calcTimeDiff_int ht
  have k6 : IntValues sched := by
    unfold getSchedule at hsched
    refine loop_inv hsched _ intValues_nil fun e _ a c ha hac => loop_inv hac _ ha fun x _ a c ha hac => ?_
    obtain ⟨t, ht, hac⟩ := bind_ok hac
    cases hac
    exact intValues_set ha _ (calcTimeDiff_int ht)
  refine ⟨k1, k2, k4.1, intValues_update k3 k4.2, ?_, ?_, ?_⟩
  · intro x hx; cases hx; exact isInt_one
  · intro d hx; cases hx; exact k6
  · exact addDelays_int hd k5

/-! ## Weights -/

theorem weights_generated (h : makeInput td st table t1 r delays = .ok (ts, tt)) (j s : Val) :
    0 ≤ Weight tt j s := by
  unfold makeInput at h
  obtain ⟨skip, -, h⟩ := bind_ok h
  obtain ⟨ts', -, h⟩ := bind_ok h
  obtain ⟨taus, -, h⟩ := bind_ok h
  obtain ⟨tt', htt, h⟩ := bind_ok h
  simp only [Except.ok.injEq, Prod.mk.injEq] at h
  obtain ⟨-, rfl⟩ := h
  unfold makeTimetable at htt
  obtain ⟨ic, -, htt⟩ := bind_ok htt
  obtain ⟨pw, hpw, htt⟩ := bind_ok htt
  obtain ⟨sched, -, htt⟩ := bind_ok htt
  cases htt
  have key : ∀ e ∈ pw, (0 : ℚ) ≤ e.2 := by
    unfold makeWeights at hpw
    refine loop_inv hpw (fun pw : Dict String ℚ => ∀ e ∈ pw, (0 : ℚ) ≤ e.2) (fun _ h => by cases h) ?_
    intro e _ a c ha hac
    unfold weightStep at hac
    obtain ⟨ty, -, hac⟩ := bind_ok hac
    obtain ⟨w, hw, hac⟩ := bind_ok hac
    simp only at hac
    obtain ⟨s, -, hac⟩ := bind_ok hac
    obtain ⟨s', -, hac⟩ := bind_ok hac
    cases hac
    have hw0 : 0 ≤ w := by
      have hall : ∀ e ∈ trainsWeights 1 (3/2) (7/4), (0 : ℚ) ≤ e.2 := by decide +kernel
      exact hall _ (Dict.mem_of_get? (Dict.at!_ok.1 hw))
    intro z hz
    rcases dict_mem_set hz with rfl | hz
    · show (0 : ℚ) ≤ ite _ _ _
      split
      · exact le_refl _
      · exact hw0
    · exact ha z hz
  unfold Weight
  rcases hg : Dict.get? pw (key2 j s) with _ | w
  · exact le_refl _
  · exact key _ (Dict.mem_of_get? hg)

end Verif
