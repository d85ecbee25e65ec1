import Verif.Proofs.OrderInv
import Verif.Proofs.Bridge

/-!
# Where the precedences at one station come from
-/

namespace Verif

/-- precedences at one station that are stored satisfy `C` -/
def StoredY3 (C : Val → Val → Val → Prop) (y : OrderVars) : Prop :=
  ∀ j jp s, j ≠ inKey → findP y (j, jp, oneStation, s) ≠ .none → C j jp s

variable {C : Val → Val → Val → Prop} {y y' : OrderVars}

theorem storedY3_add {p q : OPath} {v : LpVar} (h : StoredY3 C y) (ha : addOrder y p q v = .ok y')
    (hp : ∀ j jp s, j ≠ inKey → p = (j, jp, oneStation, s) → C j jp s) : StoredY3 C y' := by
  obtain ⟨y'', h1, h2⟩ := addOrder_spec y p q v
  rw [ha] at h1; cases h1
  rcases h2 with ⟨rfl, -⟩ | ⟨-, -, hall⟩
  · exact h
  · intro j jp s hj hne
    rw [hall] at hne
    split at hne
    · rename_i e
      exact hp j jp s hj e.symm
    · exact h j jp s hj hne

theorem storedY3_y3 {j jp s : Val} (hC : C j jp s) (h : StoredY3 C y) (ha : updateY3 y j jp s = .ok y') :
    StoredY3 C y' := by
  rw [updateY3_eq] at ha
  refine storedY3_add h ha ?_
  rintro _ _ _ - ⟨⟩
  exact hC

theorem storedY3_y4 {j jp s sp : Val} (hs : s ≠ oneStation) (h : StoredY3 C y)
    (ha : updateY4 y j jp s sp = .ok y') : StoredY3 C y' := by
  rw [updateY4_eq] at ha
  refine storedY3_add h ha ?_
  rintro _ _ _ - ⟨⟩
  exact absurd rfl hs

theorem storedY3_in {j jp s : Val} (h : StoredY3 C y) (ha : updateY4in y inKey j jp s = .ok y') :
    StoredY3 C y' := by
  rw [updateY4in_eq] at ha
  refine storedY3_add h ha ?_
  rintro _ _ _ hj ⟨⟩
  exact absurd rfl hj

/-- a stored precedence at one station comes from trains one after the other on a line, from a common
track or from common switches -/
theorem orderVariables_y3 {ts : TrainSets} (hn : NamesOK ts) (hy : orderVariables ts = .ok y)
    (hd : ∀ e ∈ ts.Jd, ∀ e2 ∈ e.2, ∀ g ∈ e2.2, ∀ j ∈ g, ∀ jp ∈ g, C j jp e.1)
    (ht : ∀ e ∈ ts.Jtrack, ∀ g ∈ e.2, ∀ j ∈ g, ∀ jp ∈ g, C j jp e.1)
    (hs : ∀ e ∈ ts.Jswitch, ∀ j a jp a', [(j, a), (jp, a')] ∈ e.2 → ∀ sp,
      departureStation4switches e.1 j [(j, a), (jp, a')] ts = .ok sp →
      departureStation4switches e.1 jp [(j, a), (jp, a')] ts = .ok sp →
      (sp = e.1 ∨ ¬ MayOvertake ts j jp e.1) → C j jp sp) {j jp s : Val} {v : LpVar} (hj : j ≠ inKey)
    (h : at4 y j jp oneStation s = .ok v) : C j jp s := by
  suffices hy' : StoredY3 C y by
    rw [at4_ok] at h
    exact hy' j jp s hj (by unfold findP at *; simp_all)
  unfold orderVariables at hy
  obtain ⟨y1, h1, hy⟩ := bind_ok hy
  obtain ⟨y2, h2, hy⟩ := bind_ok hy
  obtain ⟨y3, h3, hy⟩ := bind_ok hy
  have i0 : StoredY3 C [] := fun _ _ _ _ h => absurd rfl h
  have i1 : StoredY3 C y1 := loop_inv h1 _ i0 fun e he a b ha hab =>
    loop_inv hab _ ha fun p hp a b ha hab => storedY3_y4 (hn.names.josingle e he).1 ha hab
  have i2 : StoredY3 C y2 := loop_inv h2 _ i1 fun e he a b ha hab => loop_inv hab _ ha
    fun e2 he2 a b ha hab => loop_inv hab _ ha fun g hg a b ha hab => loop_inv hab _ ha
    fun p hp a b ha hab => storedY3_y3 (hd e he e2 he2 g hg _ (mem_pairs hp).1 _ (mem_pairs hp).2) ha hab
  have i3 : StoredY3 C y3 := loop_inv h3 _ i2 fun e he a b ha hab => loop_inv hab _ ha
    fun g hg a b ha hab => loop_inv hab _ ha
    fun p hp a b ha hab => storedY3_y3 (ht e he g hg _ (mem_pairs hp).1 _ (mem_pairs hp).2) ha hab
  refine loop_inv hy _ i3 fun e he a b ha hab => loop_inv hab _ ha fun pair hp a b ha hab => ?_
  unfold orderVar4switchBody at hab
  split at hab
  · rename_i k x kp x'
    obtain ⟨sp, hsp, hab⟩ := bind_ok hab
    obtain ⟨spp, hspp, hab⟩ := bind_ok hab
    split at hab
    · rename_i heq
      subst heq
      split at hab
      · obtain ⟨mo, hmo, hab⟩ := bind_ok hab
        split at hab
        · exact storedY3_in ha hab
        · rename_i hf
          exact storedY3_y3 (hs e he k x kp x' hp sp hsp hspp (.inr fun h => hf ((canMO_iff hmo).2 h)))
            ha hab
      · rename_i hh
        exact storedY3_y3 (hs e he k x kp x' hp sp hsp hspp (.inl (not_not.1 hh))) ha hab
    · split at hab
      · exact storedY3_y4 (departureStation_U hn.names (hn.names.jswitch e he).1 hsp) ha hab
      · exact storedY3_in ha hab
  · cases hab

end Verif
