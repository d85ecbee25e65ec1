import Verif.Props.Names

/-!
# Names of constraints, as data
-/

namespace Verif

/-- what stands in the name of a constraint -/
inductive CIx
  | span (jp j s sp : Val)
  | stay (j s : Val)
  | single (j jp s sp : Val)
  | order (j jp s sp : Val)
  | track (j jp s : Val)
  | circ (j jp s : Val)
  | switch (jp jpp s sp spp : Val)
  deriving DecidableEq

namespace CIx

/-- the name -/
def name : CIx → String
  | span jp j s sp => "minimal_span_" ++ key4 jp j s sp
  | stay j s => "minimal_stay_" ++ key2 j s
  | single j jp s sp => "single_line_" ++ key4 j jp s sp
  | order j jp s sp => "track_occupation_" ++ key4 j jp s sp
  | track j jp s => "track_occupation_" ++ key3 j jp s ++ "_p"
  | circ j jp s => "circulation_" ++ key3 j jp s
  | switch jp jpp s sp spp => "switch_" ++ key4 jp jpp s sp ++ "_" ++ spp.render

/-- the class -/
def cls : CIx → String
  | span .. => "minimal_span"
  | stay .. => "minimal_stay"
  | single .. => "single_line"
  | order .. => "track_occupation"
  | track .. => "track_occupation"
  | circ .. => "circulation"
  | switch .. => "switch"

theorem getPlaceholder_name (i : CIx) : getPlaceholder (sanitize i.name) = .ok i.cls := by
  cases i with
  | span jp j s sp =>
    unfold getPlaceholder name cls
    rw [if_pos (reMatch_true (by decide))]
  | stay j s =>
    unfold getPlaceholder name cls
    rw [reMatch_false (by decide) (by decide), reMatch_false (by decide) (by decide),
      reMatch_false (by decide) (by decide), reMatch_true (by decide)]
    rfl
  | single j jp s sp =>
    unfold getPlaceholder name cls
    rw [reMatch_false (by decide) (by decide), reMatch_false (by decide) (by decide),
      reMatch_true (by decide)]
    rfl
  | order j jp s sp =>
    unfold getPlaceholder name cls
    rw [reMatch_false (by decide) (by decide), reMatch_false (by decide) (by decide),
      reMatch_false (by decide) (by decide), reMatch_false (by decide) (by decide),
      reMatch_true (by decide)]
    rfl
  | track j jp s =>
    unfold getPlaceholder name cls
    simp only [String.append_assoc]
    rw [reMatch_false (by decide) (by decide), reMatch_false (by decide) (by decide),
      reMatch_false (by decide) (by decide), reMatch_false (by decide) (by decide),
      reMatch_true (by decide)]
    rfl
  | circ j jp s =>
    unfold getPlaceholder name cls
    rw [reMatch_false (by decide) (by decide), reMatch_true (by decide)]
    rfl
  | switch jp jpp s sp spp =>
    unfold getPlaceholder name cls
    simp only [String.append_assoc]
    rw [reMatch_false (by decide) (by decide), reMatch_false (by decide) (by decide),
      reMatch_false (by decide) (by decide), reMatch_false (by decide) (by decide),
      reMatch_false (by decide) (by decide), reMatch_true (by decide)]
    rfl

end CIx

/-- characters that PuLP replaces -/
def Legal (s : String) : Prop := ∀ c ∈ s.toList, c ∉ ['-', '+', '[', ']', ' ', '>', '/']

instance (s : String) : Decidable (Legal s) := by unfold Legal; infer_instance

theorem Legal.append {s t : String} (h : Legal s) (h' : Legal t) : Legal (s ++ t) := by
  intro c hc
  rw [String.toList_append, List.mem_append] at hc
  rcases hc with hc | hc
  · exact h c hc
  · exact h' c hc

theorem sanitize_legal {s : String} (h : Legal s) : sanitize s = s := sanitize_clean h

/-- a train: a number that is not negative -/
def IsTrain (v : Val) : Prop := ∃ n : Int, v = .int n ∧ 0 ≤ n

/-- a station: a name without underscore and without characters that PuLP replaces, not `p` -/
def IsStation (v : Val) : Prop := ∃ x, v = .str x ∧ Plain (.str x) ∧ Legal x ∧ x ≠ "p"

theorem IsTrain.plain {v : Val} (h : IsTrain v) : Plain v := by
  obtain ⟨n, rfl, -⟩ := h; exact plain_int n

theorem IsStation.plain {v : Val} (h : IsStation v) : Plain v := by
  obtain ⟨n, rfl, h, -⟩ := h; exact h

theorem IsStation.legal {v : Val} (h : IsStation v) : Legal v.render := by
  obtain ⟨n, rfl, -, h, -⟩ := h; exact h

theorem legal_nat (k : Nat) : Legal (Nat.repr k) := by
  intro c hc
  rw [Nat.toList_repr] at hc
  have := Nat.isDigit_of_mem_toDigits (by decide) (by decide) hc
  intro h
  simp only [List.mem_cons, List.not_mem_nil, or_false] at h
  rcases h with rfl | rfl | rfl | rfl | rfl | rfl | rfl <;> exact absurd this (by decide)

theorem IsTrain.legal {v : Val} (h : IsTrain v) : Legal v.render := by
  obtain ⟨n, rfl, hn⟩ := h
  show Legal (Int.repr n)
  rw [Int.repr_eq_if, if_pos hn]
  exact legal_nat _

theorem IsTrain.eq {v w : Val} (h : IsTrain v) (h' : IsTrain w) (he : v.render = w.render) :
    v = w := by
  obtain ⟨n, rfl, -⟩ := h
  obtain ⟨m, rfl, -⟩ := h'
  rw [render_int he]

theorem IsStation.eq {v w : Val} (h : IsStation v) (h' : IsStation w) (he : v.render = w.render) :
    v = w := by
  obtain ⟨n, rfl, -⟩ := h
  obtain ⟨m, rfl, -⟩ := h'
  rw [render_str he]

namespace CIx

/-- trains and stations in their places -/
def Good : CIx → Prop
  | span jp j s sp => IsTrain jp ∧ IsTrain j ∧ IsStation s ∧ IsStation sp
  | stay j s => IsTrain j ∧ IsStation s
  | single j jp s sp => IsTrain j ∧ IsTrain jp ∧ IsStation s ∧ IsStation sp
  | order j jp s sp => IsTrain j ∧ IsTrain jp ∧ IsStation s ∧ IsStation sp
  | track j jp s => IsTrain j ∧ IsTrain jp ∧ IsStation s
  | circ j jp s => IsTrain j ∧ IsTrain jp ∧ IsStation s
  | switch jp jpp s sp spp => IsTrain jp ∧ IsTrain jpp ∧ IsStation s ∧ IsStation sp ∧ IsStation spp

theorem legal {i : CIx} (h : i.Good) : Legal i.name := by
  cases i with
  | span jp j s sp =>
    obtain ⟨h1, h2, h3, h4⟩ := h
    unfold name key4
    exact .append (by decide) (.append (.append (.append (.append (.append (.append
      h1.legal (by decide)) h2.legal) (by decide)) h3.legal) (by decide)) h4.legal)
  | stay j s =>
    obtain ⟨h1, h2⟩ := h
    unfold name key2
    exact .append (by decide) (.append (.append h1.legal (by decide)) h2.legal)
  | single jp j s sp =>
    obtain ⟨h1, h2, h3, h4⟩ := h
    unfold name key4
    exact .append (by decide) (.append (.append (.append (.append (.append (.append
      h1.legal (by decide)) h2.legal) (by decide)) h3.legal) (by decide)) h4.legal)
  | order jp j s sp =>
    obtain ⟨h1, h2, h3, h4⟩ := h
    unfold name key4
    exact .append (by decide) (.append (.append (.append (.append (.append (.append
      h1.legal (by decide)) h2.legal) (by decide)) h3.legal) (by decide)) h4.legal)
  | track j jp s =>
    obtain ⟨h1, h2, h3⟩ := h
    unfold name key3
    exact .append (.append (by decide) (.append (.append (.append (.append
      h1.legal (by decide)) h2.legal) (by decide)) h3.legal)) (by decide)
  | circ j jp s =>
    obtain ⟨h1, h2, h3⟩ := h
    unfold name key3
    exact .append (by decide) (.append (.append (.append (.append
      h1.legal (by decide)) h2.legal) (by decide)) h3.legal)
  | switch jp jpp s sp spp =>
    obtain ⟨h1, h2, h3, h4, h5⟩ := h
    unfold name key4
    exact .append (.append (.append (by decide) (.append (.append (.append (.append (.append (.append
      h1.legal (by decide)) h2.legal) (by decide)) h3.legal) (by decide)) h4.legal)) (by decide)) h5.legal

theorem key4_inj {a b c d a' b' c' d' : Val} (ha : IsTrain a) (ha' : IsTrain a') (hb : IsTrain b)
    (hb' : IsTrain b') (hc : IsStation c) (hc' : IsStation c') (h : key4 a b c d = key4 a' b' c' d') :
    a = a' ∧ b = b' ∧ c = c' ∧ d.render = d'.render := by
  obtain ⟨h1, h2, h3, h4⟩ := C52_keys_partial.2.2 ha.plain ha'.plain hb.plain hb'.plain hc.plain
    hc'.plain h
  exact ⟨ha.eq ha' h1, hb.eq hb' h2, hc.eq hc' h3, h4⟩

theorem key3_inj {a b c a' b' c' : Val} (ha : IsTrain a) (ha' : IsTrain a') (hb : IsTrain b)
    (hb' : IsTrain b') (h : key3 a b c = key3 a' b' c') :
    a = a' ∧ b = b' ∧ c.render = c'.render := by
  obtain ⟨h1, h2, h3⟩ := C52_keys_partial.2.1 ha.plain ha'.plain hb.plain hb'.plain h
  exact ⟨ha.eq ha' h1, hb.eq hb' h2, h3⟩

theorem str_append_cancel {p a b : String} (h : p ++ a = p ++ b) : a = b := by
  have := congrArg String.toList h
  simp only [String.toList_append, List.append_cancel_left_eq] at this
  exact String.ext this

theorem key3_p (j jp s : Val) : "track_occupation_" ++ key3 j jp s ++ "_p" =
    "track_occupation_" ++ key4 j jp s (.str "p") := by
  have : (Val.str "p").render = "p" := rfl
  simp only [key3, key4, this, String.append_assoc]
  rfl

theorem switch_name (a b c d e : Val) : "switch_" ++ key4 a b c d ++ "_" ++ e.render =
    "switch_" ++ key4 a b c (.str (d.render ++ "_" ++ e.render)) := by
  simp only [key4, String.append_assoc]
  rfl

/-- the name tells the trains and stations -/
theorem name_inj {i k : CIx} (hi : i.Good) (hk : k.Good) (h : i.name = k.name) : i = k := by
  have hcls : i.cls = k.cls := by
    have h1 := getPlaceholder_name i
    rw [h, getPlaceholder_name k] at h1
    exact (Except.ok.inj h1).symm
  cases i with
  | span a b c d =>
    cases k with
    | span a' b' c' d' =>
      obtain ⟨h1, h2, h3, h4⟩ := hi
      obtain ⟨h1', h2', h3', h4'⟩ := hk
      obtain ⟨rfl, rfl, rfl, h5⟩ := key4_inj h1 h1' h2 h2' h3 h3' (str_append_cancel h)
      rw [h4.eq h4' h5]
    | _ => (simp only [cls] at hcls; exact absurd hcls (by decide))
  | stay a b =>
    cases k with
    | stay a' b' =>
      obtain ⟨h1, h2⟩ := hi
      obtain ⟨h1', h2'⟩ := hk
      obtain ⟨h3, h4⟩ := C52_keys_partial.1 h1.plain h1'.plain (str_append_cancel h)
      rw [h1.eq h1' h3, h2.eq h2' h4]
    | _ => (simp only [cls] at hcls; exact absurd hcls (by decide))
  | single a b c d =>
    cases k with
    | single a' b' c' d' =>
      obtain ⟨h1, h2, h3, h4⟩ := hi
      obtain ⟨h1', h2', h3', h4'⟩ := hk
      obtain ⟨rfl, rfl, rfl, h5⟩ := key4_inj h1 h1' h2 h2' h3 h3' (str_append_cancel h)
      rw [h4.eq h4' h5]
    | _ => (simp only [cls] at hcls; exact absurd hcls (by decide))
  | order a b c d =>
    cases k with
    | order a' b' c' d' =>
      obtain ⟨h1, h2, h3, h4⟩ := hi
      obtain ⟨h1', h2', h3', h4'⟩ := hk
      obtain ⟨rfl, rfl, rfl, h5⟩ := key4_inj h1 h1' h2 h2' h3 h3' (str_append_cancel h)
      rw [h4.eq h4' h5]
    | track a' b' c' =>
      obtain ⟨h1, h2, h3, h4⟩ := hi
      obtain ⟨h1', h2', h3'⟩ := hk
      replace h := h.trans (key3_p a' b' c')
      obtain ⟨rfl, rfl, rfl, h5⟩ := key4_inj h1 h1' h2 h2' h3 h3' (str_append_cancel h)
      obtain ⟨x, rfl, -, -, hp⟩ := h4
      exact absurd h5 hp
    | _ => (simp only [cls] at hcls; exact absurd hcls (by decide))
  | track a b c =>
    cases k with
    | track a' b' c' =>
      obtain ⟨h1, h2, h3⟩ := hi
      obtain ⟨h1', h2', h3'⟩ := hk
      replace h := (key3_p a b c).symm.trans (h.trans (key3_p a' b' c'))
      obtain ⟨rfl, rfl, rfl, h5⟩ := key4_inj h1 h1' h2 h2' h3 h3' (str_append_cancel h)
      rfl
    | order a' b' c' d' =>
      obtain ⟨h1, h2, h3⟩ := hi
      obtain ⟨h1', h2', h3', h4'⟩ := hk
      replace h := (key3_p a b c).symm.trans h
      obtain ⟨rfl, rfl, rfl, h5⟩ := key4_inj h1 h1' h2 h2' h3 h3' (str_append_cancel h)
      obtain ⟨x, rfl, -, -, hp⟩ := h4'
      exact absurd h5.symm hp
    | _ => (simp only [cls] at hcls; exact absurd hcls (by decide))
  | circ a b c =>
    cases k with
    | circ a' b' c' =>
      obtain ⟨h1, h2, h3⟩ := hi
      obtain ⟨h1', h2', h3'⟩ := hk
      obtain ⟨rfl, rfl, h5⟩ := key3_inj h1 h1' h2 h2' (str_append_cancel h)
      rw [h3.eq h3' h5]
    | _ => (simp only [cls] at hcls; exact absurd hcls (by decide))
  | switch a b c d e =>
    cases k with
    | switch a' b' c' d' e' =>
      obtain ⟨h1, h2, h3, h4, h5⟩ := hi
      obtain ⟨h1', h2', h3', h4', h5'⟩ := hk
      have hh : key4 a b c (.str (d.render ++ "_" ++ e.render)) =
          key4 a' b' c' (.str (d'.render ++ "_" ++ e'.render)) := by
        exact str_append_cancel ((switch_name a b c d e).symm.trans (h.trans (switch_name a' b' c' d' e')))
      obtain ⟨rfl, rfl, rfl, h6⟩ := key4_inj h1 h1' h2 h2' h3 h3' hh
      obtain ⟨h7, h8⟩ := split_render h4.plain h4'.plain h6
      rw [h4.eq h4' h7, h5.eq h5' h8]
    | _ => (simp only [cls] at hcls; exact absurd hcls (by decide))

end CIx

/-! ## Lists of constraints with distinct names -/

/-- the constraints have distinct names, all with the given property -/
def Labels (m : Py (List Named)) (Q : CIx → Prop) : Prop :=
  ∀ cs, m = .ok cs → ∃ is : List CIx, is.Nodup ∧ cs.map Prod.fst = is.map CIx.name ∧ ∀ i ∈ is, Q i

theorem labels_nil (Q : CIx → Prop) : Labels (.ok []) Q := by
  intro cs h
  cases h
  exact ⟨[], List.nodup_nil, rfl, by simp⟩

theorem labels_error (e : PyErr) (Q : CIx → Prop) : Labels (.error e) Q := by
  intro cs h
  cases h

theorem labels_one {i : CIx} {c : Named} (h : c.1 = i.name) : Labels (.ok [c]) (· = i) := by
  intro cs hcs
  cases hcs
  exact ⟨[i], List.nodup_singleton i, by simp [h], by simp⟩

theorem Labels.mono {m : Py (List Named)} {Q Q' : CIx → Prop} (h : Labels m Q)
    (hq : ∀ i, Q i → Q' i) : Labels m Q' := by
  intro cs hcs
  obtain ⟨is, h1, h2, h3⟩ := h cs hcs
  exact ⟨is, h1, h2, fun i hi => hq i (h3 i hi)⟩

theorem labels_bind {α : Type} {m : Py α} {f : α → Py (List Named)} {Q : CIx → Prop}
    (h : ∀ a, m = .ok a → Labels (f a) Q) : Labels (m >>= f) Q := by
  intro cs hcs
  obtain ⟨a, ha, hcs⟩ := bind_ok hcs
  exact h a ha cs hcs

theorem labels_append {m m' : Py (List Named)} {Q Q' : CIx → Prop} (h : Labels m Q) (h' : Labels m' Q')
    (hd : ∀ i, Q i → Q' i → False) :
    Labels (m >>= fun a => m' >>= fun b => .ok (a ++ b)) (fun i => Q i ∨ Q' i) := by
  intro cs hcs
  obtain ⟨a, ha, hcs⟩ := bind_ok hcs
  obtain ⟨b, hb, hcs⟩ := bind_ok hcs
  cases hcs
  obtain ⟨is, h1, h2, h3⟩ := h a ha
  obtain ⟨is', h1', h2', h3'⟩ := h' b hb
  refine ⟨is ++ is', ?_, by simp [h2, h2'], ?_⟩
  · rw [List.nodup_append]
    exact ⟨h1, h1', fun i hi k hk hik => hd i (h3 i hi) (by rw [hik]; exact h3' k hk)⟩
  · intro i hi
    rcases List.mem_append.1 hi with hi | hi
    · exact .inl (h3 i hi)
    · exact .inr (h3' i hi)

theorem labels_collect {α : Type} {xs : List α} {f : α → Py (List Named)} {Q : α → CIx → Prop}
    (h : ∀ x ∈ xs, Labels (f x) (Q x))
    (hd : xs.Pairwise fun x y => ∀ i, Q x i → Q y i → False) :
    Labels (collect xs f) (fun i => ∃ x ∈ xs, Q x i) := by
  induction xs with
  | nil => exact labels_nil _
  | cons x xs ih =>
    intro cs hcs
    simp only [collect] at hcs
    split at hcs
    · cases hcs
    · rename_i a ha
      split at hcs
      · cases hcs
      · rename_i b hb
        cases hcs
        obtain ⟨hx, hd⟩ := List.pairwise_cons.1 hd
        obtain ⟨is, h1, h2, h3⟩ := h x List.mem_cons_self a ha
        obtain ⟨is', h1', h2', h3'⟩ := ih (fun y hy => h y (List.mem_cons_of_mem _ hy)) hd b hb
        refine ⟨is ++ is', ?_, by simp [h2, h2'], ?_⟩
        · rw [List.nodup_append]
          refine ⟨h1, h1', fun i hi k hk hik => ?_⟩
          obtain ⟨y, hy, hq⟩ := h3' k hk
          exact hx y hy i (h3 i hi) (by rw [hik]; exact hq)
        · intro i hi
          rcases List.mem_append.1 hi with hi | hi
          · exact ⟨x, List.mem_cons_self, h3 i hi⟩
          · obtain ⟨y, hy, hq⟩ := h3' i hi
            exact ⟨y, List.mem_cons_of_mem _ hy, hq⟩

/-- constraints with distinct names can be added -/
theorem addAll_of_nodup {ncs : List Named} (h : (ncs.map fun nc => sanitize nc.1).Nodup) :
    ∀ p : Problem, (∀ nc ∈ ncs, sanitize nc.1 ∉ Dict.keys p.constraints) →
      ∃ q, p.addAll ncs = .ok q := by
  induction ncs with
  | nil => intro p _; exact ⟨p, rfl⟩
  | cons nc ncs ih =>
    intro p hp
    rw [List.map_cons, List.nodup_cons] at h
    have h0 : Dict.has p.constraints (sanitize nc.1) = false := by
      have := hp nc List.mem_cons_self
      rw [← Dict.get?_isSome] at this
      simpa [Dict.has] using this
    obtain ⟨q, hq⟩ := ih h.2 { p with constraints := p.constraints ++ [(sanitize nc.1, nc.2)] } (by
      intro nc' hnc'
      simp only [Dict.keys, List.map_append, List.map_cons, List.map_nil, List.mem_append,
        List.mem_singleton, not_or]
      exact ⟨hp nc' (List.mem_cons_of_mem _ hnc'), fun he => h.1 (by
        rw [← he]; exact List.mem_map.2 ⟨nc', hnc', rfl⟩)⟩)
    refine ⟨q, ?_⟩
    unfold Problem.addAll at hq ⊢
    simp only [loop, Problem.addConstraint, h0]
    exact hq

theorem labels_addAll {cs : List Named} (h : Labels (.ok cs) CIx.Good) :
    ∃ p, Problem.empty.addAll cs = .ok p := by
  obtain ⟨is, h1, h2, h3⟩ := h cs rfl
  apply addAll_of_nodup
  · have : (cs.map fun nc => sanitize nc.1) = is.map CIx.name := by
      have h4 : (cs.map fun nc => sanitize nc.1) = (cs.map Prod.fst).map sanitize := by
        rw [List.map_map]; rfl
      rw [h4, h2, List.map_map]
      apply List.map_congr_left
      intro i hi
      exact sanitize_legal (CIx.legal (h3 i hi))
    rw [this]
    exact List.Nodup.map_on (fun i hi k hk he => CIx.name_inj (h3 i hi) (h3 k hk) he) h1
  · intro nc _
    simp [Problem.empty, Dict.keys]

end Verif
