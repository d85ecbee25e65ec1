import Verif.Proofs.OrderInv
import Verif.Spec.Feasible

/-!
# Values of order variables, presence of order variables, shape of delay variables
-/

namespace Verif

theorem int01 {x : ℚ} (h0 : 0 ≤ x) (h1 : x ≤ 1) (hi : ∃ n : ℤ, x = n) : x = 0 ∨ x = 1 := by
  obtain ⟨n, rfl⟩ := hi
  have a : (0 : ℤ) ≤ n := by exact_mod_cast h0
  have b : n ≤ (1 : ℤ) := by exact_mod_cast h1
  have : n = 0 ∨ n = 1 := by omega
  rcases this with rfl | rfl
  · left; simp
  · right; simp

@[simp] theorem eval_oneMinus (σ : LpVar → ℚ) (v : LpVar) : (oneMinus v).eval σ = 1 - σ v := by
  simp [oneMinus]

section
variable {ts : TrainSets} {y : OrderVars} (hy : orderVariables ts = .ok y) {σ : LpVar → ℚ}
  (hdom : ∀ a b c d v, at4 y a b c d = .ok v → InDomain v (σ v))
include hy hdom

theorem at4_val {a b c d : Val} {v : LpVar} (h : at4 y a b c d = .ok v) : σ v = 0 ∨ σ v = 1 := by
  obtain ⟨_, h2, h3, h4⟩ := orderVariables_isOrderVar hy h
  obtain ⟨d1, d2, d3⟩ := hdom _ _ _ _ _ h
  rw [h2] at d1; rw [h3] at d2
  exact int01 d1 d2 (d3 h4)

theorem getY4_val {j jp s sp : Val} {e : LinExpr} (h : getY4singleline y j jp s sp = .ok e) :
    e.eval σ = 0 ∨ e.eval σ = 1 := by
  unfold getY4singleline at h
  split at h
  · obtain ⟨v, hv, h⟩ := bind_ok h; cases h
    simpa using at4_val hy hdom hv
  · obtain ⟨v, hv, h⟩ := bind_ok h; cases h
    rcases at4_val hy hdom hv with h | h <;> simp [h]

theorem getY3_val {j jp s : Val} {e : LinExpr} (h : getY3 y j jp s = .ok e) :
    e.eval σ = 0 ∨ e.eval σ = 1 := by
  unfold getY3 at h
  split at h
  · obtain ⟨v, hv, h⟩ := bind_ok h; cases h
    simpa using at4_val hy hdom hv
  · obtain ⟨v, hv, h⟩ := bind_ok h; cases h
    rcases at4_val hy hdom hv with h | h <;> simp [h]

theorem getY4in_val {a j jp s : Val} {e : LinExpr} (h : getY4in y a j jp s = .ok e) :
    e.eval σ = 0 ∨ e.eval σ = 1 := by
  unfold getY4in at h
  split at h
  · obtain ⟨v, hv, h⟩ := bind_ok h; cases h
    simpa using at4_val hy hdom hv
  · obtain ⟨v, hv, h⟩ := bind_ok h; cases h
    rcases at4_val hy hdom hv with h | h <;> simp [h]

theorem switchOrderVar_val {s jp sp jpp spp : Val} {e : LinExpr}
    (h : switchOrderVar s jp sp jpp spp y ts = .ok e) : e.eval σ = 0 ∨ e.eval σ = 1 := by
  unfold switchOrderVar at h
  split at h
  · split at h
    · obtain ⟨mo, _, h⟩ := bind_ok h
      split at h
      · exact getY4in_val hy hdom h
      · exact getY3_val hy hdom h
    · exact getY3_val hy hdom h
  · split at h
    · exact getY4_val hy hdom h
    · exact getY4in_val hy hdom h

end

/-! ## The two readings of an order variable -/

/-- reading a path `p` of the dictionary, or one minus the value at the other path `q` -/
def getP (y : OrderVars) (p q : OPath) : Py LinExpr :=
  if checkOrderVar4arg y p.1 p.2.1 p.2.2.1 p.2.2.2 then do
    .ok (.var (← at4 y p.1 p.2.1 p.2.2.1 p.2.2.2))
  else do .ok (oneMinus (← at4 y q.1 q.2.1 q.2.2.1 q.2.2.2))

theorem getY3_eq (y : OrderVars) (j jp s : Val) :
    getY3 y j jp s = getP y (j, jp, oneStation, s) (jp, j, oneStation, s) := rfl
theorem getY4_eq (y : OrderVars) (j jp s sp : Val) :
    getY4singleline y j jp s sp = getP y (j, jp, s, sp) (jp, j, sp, s) := rfl
theorem getY4in_eq (y : OrderVars) (a j jp s : Val) :
    getY4in y a j jp s = getP y (a, j, jp, s) (a, jp, j, s) := rfl

theorem getP_ok {y : OrderVars} {p q : OPath} :
    (∃ e, getP y p q = .ok e) ↔ (findP y p ≠ .none ∨ findP y q ≠ .none) := by
  unfold getP
  split
  · rename_i h
    rw [check4_iff] at h
    constructor
    · intro _; exact .inl h
    · intro _
      cases hv : find4 y p.1 p.2.1 p.2.2.1 p.2.2.2 with
      | none => exact absurd hv h
      | some v => rw [at4_ok.2 hv]; exact ⟨_, rfl⟩
  · rename_i h
    rw [check4_iff, not_not] at h
    constructor
    · rintro ⟨e, he⟩
      obtain ⟨v, hv, _⟩ := bind_ok he
      rw [at4_ok] at hv
      right; unfold findP; rw [hv]; simp
    · rintro (h' | h')
      · exact absurd h h'
      · cases hv : find4 y q.1 q.2.1 q.2.2.1 q.2.2.2 with
        | none => exact absurd hv h'
        | some v => rw [at4_ok.2 hv]; exact ⟨_, rfl⟩

/-- if not both orientations exist, the two readings add up to one -/
theorem getP_add {y : OrderVars} {p q : OPath} (hnb : ¬ (findP y p ≠ .none ∧ findP y q ≠ .none))
    {e f : LinExpr} (he : getP y p q = .ok e) (hf : getP y q p = .ok f) (σ : LpVar → ℚ) :
    e.eval σ + f.eval σ = 1 := by
  unfold getP at he hf
  split at he
  · rename_i h
    rw [check4_iff] at h
    split at hf
    · rename_i h2
      rw [check4_iff] at h2
      exact absurd ⟨h, h2⟩ hnb
    · obtain ⟨v, hv, he⟩ := bind_ok he; cases he
      obtain ⟨w, hw, hf⟩ := bind_ok hf; cases hf
      rw [hv] at hw; cases hw
      simp
  · rename_i h
    rw [check4_iff, not_not] at h
    obtain ⟨v, hv, he⟩ := bind_ok he; cases he
    split at hf
    · obtain ⟨w, hw, hf⟩ := bind_ok hf; cases hf
      rw [hv] at hw; cases hw
      simp
    · rename_i h2
      rw [check4_iff, not_not] at h2
      rw [at4_ok, h2] at hv; cases hv

section
variable {ts : TrainSets} {y : OrderVars} (hn : NamesOK ts) (hy : orderVariables ts = .ok y)
include hn hy

theorem noBoth {p : OPath} (hne : swapP p ≠ p) :
    ¬ (findP y p ≠ .none ∧ findP y (swapP p) ≠ .none) := by
  rintro ⟨h1, h2⟩
  exact h2 ((steps_noBoth (orderVariables_steps hn.names hy) p h1).2 hne)

theorem noBoth3 {j jp : Val} (s : Val) (hj : j ≠ inKey) (hne : j ≠ jp) :
    ¬ (findP y (j, jp, oneStation, s) ≠ .none ∧ findP y (jp, j, oneStation, s) ≠ .none) := by
  have := noBoth hn hy (p := (j, jp, oneStation, s))
    (by simp only [swapP, hj, if_false, if_true]; intro h; simp at h; exact hne h.1.symm)
  simpa [swapP, hj] using this

theorem noBoth4 {j jp s sp : Val} (hj : j ≠ inKey) (hs : s ≠ oneStation)
    (hne : ¬ (j = jp ∧ s = sp)) :
    ¬ (findP y (j, jp, s, sp) ≠ .none ∧ findP y (jp, j, sp, s) ≠ .none) := by
  have := noBoth hn hy (p := (j, jp, s, sp))
    (by simp only [swapP, hj, hs, if_false]; intro h; simp at h; exact hne ⟨h.2.1, h.2.2.2⟩)
  simpa [swapP, hj, hs] using this

theorem noBothIn {j jp : Val} (s : Val) (hne : j ≠ jp) :
    ¬ (findP y (inKey, j, jp, s) ≠ .none ∧ findP y (inKey, jp, j, s) ≠ .none) := by
  have := noBoth hn hy (p := (inKey, j, jp, s))
    (by simp only [swapP, if_true]; intro h; simp at h; exact hne h.1.symm)
  simpa [swapP] using this

end

/-! ## Presence -/

section
variable {ts : TrainSets} {y : OrderVars} (hy : orderVariables ts = .ok y)
include hy

theorem hasY4_josingle {e : (Val × Val) × List (Val × Val)} (he : e ∈ ts.Josingle) {p : Val × Val}
    (hp : p ∈ e.2) : findP y (p.1, p.2, e.1.1, e.1.2) ≠ .none ∨
      findP y (p.2, p.1, e.1.2, e.1.1) ≠ .none := by
  unfold orderVariables at hy
  obtain ⟨y1, h1, hy⟩ := bind_ok hy
  obtain ⟨y2, h2, hy⟩ := bind_ok hy
  obtain ⟨y3, h3, hy⟩ := bind_ok hy
  have hn := namesTrue ts
  have later := ((minimalSpan_steps hn h2).trans (track_steps hn h3)).trans (switch_steps hn hy)
  suffices findP y1 (p.1, p.2, e.1.1, e.1.2) ≠ .none ∨
      findP y1 (p.2, p.1, e.1.2, e.1.1) ≠ .none from this.imp later.mono' later.mono'
  have step1 := loop_each h1
    (fun e z => ∀ p ∈ e.2, findP z (p.1, p.2, e.1.1, e.1.2) ≠ .none ∨
      findP z (p.2, p.1, e.1.2, e.1.1) ≠ .none)
    (fun e _ a b hab => loop_each hab
      (fun p z => findP z (p.1, p.2, e.1.1, e.1.2) ≠ .none ∨ findP z (p.2, p.1, e.1.2, e.1.1) ≠ .none)
      (fun p _ a b hab => addOrder_has (updateY4_eq a p.1 p.2 e.1.1 e.1.2 ▸ hab))
      (fun p _ q hq a b hP hab =>
        have st := updateY4_steps (T := fun _ => True) (U := fun _ => True)
          trivial trivial trivial trivial hab
        hP.imp st.mono' st.mono'))
    (fun e _ e' he' a b hP hab p hp =>
      have st : Steps (fun _ => True) (fun _ => True) a b := loop_steps hab fun p _ a b hab =>
        updateY4_steps trivial trivial trivial trivial hab
      (hP p hp).imp st.mono' st.mono')
  exact step1 e he p hp

theorem hasY3_jd {e : Val × Dict Val (List (List Val))} (he : e ∈ ts.Jd)
    {e2 : Val × List (List Val)} (he2 : e2 ∈ e.2) {g : List Val} (hg : g ∈ e2.2) {p : Val × Val}
    (hp : p ∈ pairs g) : findP y (p.1, p.2, oneStation, e.1) ≠ .none ∨
      findP y (p.2, p.1, oneStation, e.1) ≠ .none := by
  unfold orderVariables at hy
  obtain ⟨y1, h1, hy⟩ := bind_ok hy
  obtain ⟨y2, h2, hy⟩ := bind_ok hy
  obtain ⟨y3, h3, hy⟩ := bind_ok hy
  have hn := namesTrue ts
  have later := (track_steps hn h3).trans (switch_steps hn hy)
  suffices findP y2 (p.1, p.2, oneStation, e.1) ≠ .none ∨
      findP y2 (p.2, p.1, oneStation, e.1) ≠ .none from this.imp later.mono' later.mono'
  let Q : Val → Val × Val → OrderVars → Prop := fun s p z =>
    findP z (p.1, p.2, oneStation, s) ≠ .none ∨ findP z (p.2, p.1, oneStation, s) ≠ .none
  have keep : ∀ {s : Val} {p : Val × Val} {a b : OrderVars},
      Steps (fun _ => True) (fun _ => True) a b → Q s p a → Q s p b :=
    fun st hP => hP.imp st.mono' st.mono'
  have st3 : ∀ {s : Val} {g : List Val} {a b : OrderVars},
      loop (pairs g) (fun y p => updateY3 y p.1 p.2 s) a = .ok b →
      Steps (fun _ => True) (fun _ => True) a b := fun h =>
    loop_steps h fun _ _ _ _ hab => updateY3_steps trivial trivial hab
  have st2 : ∀ {s : Val} {gs : List (List Val)} {a b : OrderVars},
      loop gs (fun y js => loop (pairs js) (fun y p => updateY3 y p.1 p.2 s) y) a = .ok b →
      Steps (fun _ => True) (fun _ => True) a b := fun h =>
    loop_steps h fun _ _ _ _ hab => st3 hab
  have st1 : ∀ {s : Val} {d : Dict Val (List (List Val))} {a b : OrderVars},
      loop d (fun y e2 => loop e2.2
        (fun y js => loop (pairs js) (fun y p => updateY3 y p.1 p.2 s) y) y) a = .ok b →
      Steps (fun _ => True) (fun _ => True) a b := fun h =>
    loop_steps h fun _ _ _ _ hab => st2 hab
  exact loop_each h2 (fun e z => ∀ e2 ∈ e.2, ∀ g ∈ e2.2, ∀ p ∈ pairs g, Q e.1 p z)
    (fun e _ a b hab => loop_each hab (fun e2 z => ∀ g ∈ e2.2, ∀ p ∈ pairs g, Q e.1 p z)
      (fun e2 _ a b hab => loop_each hab (fun g z => ∀ p ∈ pairs g, Q e.1 p z)
        (fun g _ a b hab => loop_each hab (fun p z => Q e.1 p z)
          (fun p _ a b hab => addOrder_has (updateY3_eq a p.1 p.2 e.1 ▸ hab))
          (fun p _ q _ a b hP hab => keep (updateY3_steps trivial trivial hab) hP))
        (fun g _ g' _ a b hP hab p hp => keep (st3 hab) (hP p hp)))
      (fun e2 _ e2' _ a b hP hab g hg p hp => keep (st2 hab) (hP g hg p hp)))
    (fun e _ e' _ a b hP hab e2 he2 g hg p hp => keep (st1 hab) (hP e2 he2 g hg p hp))
    e he e2 he2 g hg p hp

theorem hasY3_jtrack {e : Val × List (List Val)} (he : e ∈ ts.Jtrack) {g : List Val} (hg : g ∈ e.2)
    {p : Val × Val} (hp : p ∈ pairs g) : findP y (p.1, p.2, oneStation, e.1) ≠ .none ∨
      findP y (p.2, p.1, oneStation, e.1) ≠ .none := by
  unfold orderVariables at hy
  obtain ⟨y1, h1, hy⟩ := bind_ok hy
  obtain ⟨y2, h2, hy⟩ := bind_ok hy
  obtain ⟨y3, h3, hy⟩ := bind_ok hy
  have hn := namesTrue ts
  have later := switch_steps hn hy
  suffices findP y3 (p.1, p.2, oneStation, e.1) ≠ .none ∨
      findP y3 (p.2, p.1, oneStation, e.1) ≠ .none from this.imp later.mono' later.mono'
  let Q : Val → Val × Val → OrderVars → Prop := fun s p z =>
    findP z (p.1, p.2, oneStation, s) ≠ .none ∨ findP z (p.2, p.1, oneStation, s) ≠ .none
  have keep : ∀ {s : Val} {p : Val × Val} {a b : OrderVars},
      Steps (fun _ => True) (fun _ => True) a b → Q s p a → Q s p b :=
    fun st hP => hP.imp st.mono' st.mono'
  have st3 : ∀ {s : Val} {g : List Val} {a b : OrderVars},
      loop (pairs g) (fun y p => updateY3 y p.1 p.2 s) a = .ok b →
      Steps (fun _ => True) (fun _ => True) a b := fun h =>
    loop_steps h fun _ _ _ _ hab => updateY3_steps trivial trivial hab
  have st2 : ∀ {s : Val} {gs : List (List Val)} {a b : OrderVars},
      loop gs (fun y js => loop (pairs js) (fun y p => updateY3 y p.1 p.2 s) y) a = .ok b →
      Steps (fun _ => True) (fun _ => True) a b := fun h =>
    loop_steps h fun _ _ _ _ hab => st3 hab
  exact loop_each h3 (fun e z => ∀ g ∈ e.2, ∀ p ∈ pairs g, Q e.1 p z)
    (fun e _ a b hab => loop_each hab (fun g z => ∀ p ∈ pairs g, Q e.1 p z)
        (fun g _ a b hab => loop_each hab (fun p z => Q e.1 p z)
          (fun p _ a b hab => addOrder_has (updateY3_eq a p.1 p.2 e.1 ▸ hab))
          (fun p _ q _ a b hP hab => keep (updateY3_steps trivial trivial hab) hP))
        (fun g _ g' _ a b hP hab p hp => keep (st3 hab) (hP p hp)))
    (fun e _ e' _ a b hP hab g hg p hp => keep (st2 hab) (hP g hg p hp))
    e he g hg p hp

/-- what `order_var4switch_occupation` guarantees for a pair of `Jswitch[s]` -/
theorem has_jswitch {e : Val × List (Dict Val String)} (he : e ∈ ts.Jswitch)
    {pair : Dict Val String} (hp : pair ∈ e.2) {jp jpp : Val} {a b : String}
    (hpair : pair = [(jp, a), (jpp, b)]) {sp spp : Val}
    (hsp : departureStation4switches e.1 jp pair ts = .ok sp)
    (hspp : departureStation4switches e.1 jpp pair ts = .ok spp) :
    (sp = spp ∧ sp ≠ e.1 ∧ canMOonLine jp jpp e.1 ts = .ok true ∧
        (findP y (inKey, jp, jpp, e.1) ≠ .none ∨ findP y (inKey, jpp, jp, e.1) ≠ .none)) ∨
    (sp = spp ∧ (sp = e.1 ∨ canMOonLine jp jpp e.1 ts = .ok false) ∧
        (findP y (jp, jpp, oneStation, sp) ≠ .none ∨ findP y (jpp, jp, oneStation, sp) ≠ .none)) ∨
    (sp ≠ spp ∧ (e.1 = sp ∨ e.1 = spp) ∧
        (findP y (jp, jpp, sp, spp) ≠ .none ∨ findP y (jpp, jp, spp, sp) ≠ .none)) ∨
    (sp ≠ spp ∧ e.1 ≠ sp ∧ e.1 ≠ spp ∧
        (findP y (inKey, jp, jpp, e.1) ≠ .none ∨ findP y (inKey, jpp, jp, e.1) ≠ .none)) := by
  unfold orderVariables at hy
  obtain ⟨y1, h1, hy⟩ := bind_ok hy
  obtain ⟨y2, h2, hy⟩ := bind_ok hy
  obtain ⟨y3, h3, hy⟩ := bind_ok hy
  have hn := namesTrue ts
  let Q : Val → Dict Val String → OrderVars → Prop := fun s pair z =>
    ∀ jp jpp a b sp spp, pair = [(jp, a), (jpp, b)] →
      departureStation4switches s jp pair ts = .ok sp →
      departureStation4switches s jpp pair ts = .ok spp →
    ((sp = spp ∧ sp ≠ s ∧ canMOonLine jp jpp s ts = .ok true ∧
        (findP z (inKey, jp, jpp, s) ≠ .none ∨ findP z (inKey, jpp, jp, s) ≠ .none)) ∨
    (sp = spp ∧ (sp = s ∨ canMOonLine jp jpp s ts = .ok false) ∧
        (findP z (jp, jpp, oneStation, sp) ≠ .none ∨ findP z (jpp, jp, oneStation, sp) ≠ .none)) ∨
    (sp ≠ spp ∧ (s = sp ∨ s = spp) ∧
        (findP z (jp, jpp, sp, spp) ≠ .none ∨ findP z (jpp, jp, spp, sp) ≠ .none)) ∨
    (sp ≠ spp ∧ s ≠ sp ∧ s ≠ spp ∧
        (findP z (inKey, jp, jpp, s) ≠ .none ∨ findP z (inKey, jpp, jp, s) ≠ .none)))
  have keep : ∀ {s : Val} {pair : Dict Val String} {a b : OrderVars},
      Steps (fun _ => True) (fun _ => True) a b → Q s pair a → Q s pair b := by
    intro s pair a b st hP jp jpp u v sp spp h1 h2 h3
    rcases hP jp jpp u v sp spp h1 h2 h3 with ⟨p1, p2, p3, p4⟩ | ⟨p1, p2, p4⟩ | ⟨p1, p2, p4⟩ |
      ⟨p1, p2, p3, p4⟩
    · exact .inl ⟨p1, p2, p3, p4.imp st.mono' st.mono'⟩
    · exact .inr (.inl ⟨p1, p2, p4.imp st.mono' st.mono'⟩)
    · exact .inr (.inr (.inl ⟨p1, p2, p4.imp st.mono' st.mono'⟩))
    · exact .inr (.inr (.inr ⟨p1, p2, p3, p4.imp st.mono' st.mono'⟩))
  have st1 : ∀ {s : Val} {pair : Dict Val String} {a b : OrderVars},
      orderVar4switchBody ts s a pair = .ok b → Steps (fun _ => True) (fun _ => True) a b :=
    fun h => switchBody_steps hn trivial (fun _ _ => trivial) h
  have st2 : ∀ {s : Val} {ps : List (Dict Val String)} {a b : OrderVars},
      loop ps (orderVar4switchBody ts s) a = .ok b → Steps (fun _ => True) (fun _ => True) a b :=
    fun h => loop_steps h fun _ _ _ _ hab => st1 hab
  have est : ∀ {s : Val} {pair : Dict Val String} {u v : OrderVars},
      orderVar4switchBody ts s u pair = .ok v → Q s pair v := by
    intro s pair u v h jp jpp a b sp spp hpair hsp hspp
    subst hpair
    unfold orderVar4switchBody at h
    simp only at h
    rw [hsp, hspp] at h
    simp only [bind, Except.bind] at h
    split at h
    · rename_i heq
      split at h
      · rename_i hne
        split at h
        · cases h
        · rename_i mo hmo
          split at h
          · rename_i hm; subst hm
            exact .inl ⟨heq, hne, hmo, addOrder_has (updateY4in_eq u inKey jp jpp s ▸ h)⟩
          · rename_i hm
            have : mo = false := by simpa using hm
            subst this
            exact .inr (.inl ⟨heq, .inr hmo, addOrder_has (updateY3_eq u jp jpp sp ▸ h)⟩)
      · rename_i hne
        have : sp = s := by simpa using hne
        exact .inr (.inl ⟨heq, .inl this, addOrder_has (updateY3_eq u jp jpp sp ▸ h)⟩)
    · rename_i hne
      split at h
      · rename_i hs
        exact .inr (.inr (.inl ⟨hne, hs, addOrder_has (updateY4_eq u jp jpp sp spp ▸ h)⟩))
      · rename_i hs
        rw [not_or] at hs
        exact .inr (.inr (.inr ⟨hne, hs.1, hs.2, addOrder_has (updateY4in_eq u inKey jp jpp s ▸ h)⟩))
  exact loop_each hy (fun e z => ∀ pair ∈ e.2, Q e.1 pair z)
    (fun e _ a b hab => loop_each hab (fun pair z => Q e.1 pair z)
      (fun pair _ a b hab => est hab)
      (fun pair _ pair' _ a b hP hab => keep (st1 hab) hP))
    (fun e _ e' _ a b hP hab pair hpair => keep (st2 hab) (hP pair hpair))
    e he pair hp jp jpp a b sp spp hpair hsp hspp

end

end Verif
