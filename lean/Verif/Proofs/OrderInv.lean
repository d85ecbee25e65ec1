import Verif.Proofs.OrderVars
import Verif.Spec.Names

/-!
# Invariants of `order_variables`
-/

namespace Verif

/-- a path in the nested dictionary of order variables -/
abbrev OPath := Val × Val × Val × Val

/-- The three kinds of requests made by `order_variables`; `T` holds for the train names,
`U` for the station names in two-station requests. -/
inductive Req (T U : Val → Prop) : OPath → OPath → LpVar → Prop
  | y3 (j jp s : Val) : T j → T jp →
      Req T U (j, jp, oneStation, s) (jp, j, oneStation, s) (yVar j jp s)
  | y4 (j jp s sp : Val) : T j → T jp → U s → U sp →
      Req T U (j, jp, s, sp) (jp, j, sp, s) (zVar j jp s sp)
  | y4in (j jp s : Val) : T j → T jp →
      Req T U (inKey, j, jp, s) (inKey, jp, j, s) (zVar inKey j jp s)

/-- finitely many requests in sequence -/
inductive Steps (T U : Val → Prop) : OrderVars → OrderVars → Prop
  | refl (y : OrderVars) : Steps T U y y
  | step {y y' y'' : OrderVars} {p q : OPath} {v : LpVar} : Steps T U y y' → Req T U p q v →
      addOrder y' p q v = .ok y'' → Steps T U y y''

theorem Steps.trans {T U : Val → Prop} {a b c : OrderVars} (h1 : Steps T U a b)
    (h2 : Steps T U b c) : Steps T U a c := by
  induction h2 with
  | refl => exact h1
  | step _ hr ha ih => exact .step ih hr ha

theorem Steps.mono {T U : Val → Prop} {y y' : OrderVars} (h : Steps T U y y') {r : OPath}
    {w : LpVar} (hr : findP y r = some w) : findP y' r = some w := by
  induction h with
  | refl => exact hr
  | step _ _ ha ih => exact addOrder_mono ha ih

theorem Steps.mono' {T U : Val → Prop} {y y' : OrderVars} (h : Steps T U y y') {r : OPath}
    (hr : findP y r ≠ .none) : findP y' r ≠ .none := by
  cases hw : findP y r with
  | none => exact absurd hw hr
  | some w => rw [h.mono hw]; simp

theorem loop_steps {α : Type} {T U : Val → Prop} {xs : List α} {f : OrderVars → α → Py OrderVars}
    {y y' : OrderVars} (h : loop xs f y = .ok y')
    (hf : ∀ x ∈ xs, ∀ a b, f a x = .ok b → Steps T U a b) : Steps T U y y' :=
  loop_inv h (fun z => Steps T U y z) (.refl y) fun x hx _ _ h1 h2 => h1.trans (hf x hx _ _ h2)

theorem updateY3_steps {T U : Val → Prop} {y y' : OrderVars} {j jp s : Val} (hj : T j) (hjp : T jp)
    (h : updateY3 y j jp s = .ok y') : Steps T U y y' :=
  .step (.refl y) (.y3 j jp s hj hjp) (updateY3_eq y j jp s ▸ h)

theorem updateY4_steps {T U : Val → Prop} {y y' : OrderVars} {j jp s sp : Val} (hj : T j)
    (hjp : T jp) (hs : U s) (hsp : U sp) (h : updateY4 y j jp s sp = .ok y') : Steps T U y y' :=
  .step (.refl y) (.y4 j jp s sp hj hjp hs hsp) (updateY4_eq y j jp s sp ▸ h)

theorem updateY4in_steps {T U : Val → Prop} {y y' : OrderVars} {j jp s : Val} (hj : T j)
    (hjp : T jp) (h : updateY4in y inKey j jp s = .ok y') : Steps T U y y' :=
  .step (.refl y) (.y4in j jp s hj hjp) (updateY4in_eq y inKey j jp s ▸ h)

theorem namesTrue (ts : TrainSets) : NamesTU (fun _ => True) (fun _ => True) ts :=
  ⟨by simp, by simp, by simp, by simp, by simp, trivial⟩

theorem nth_mem {α : Type} {xs : List α} {i : Nat} {x : α} (h : nth xs i = .ok x) : x ∈ xs := by
  unfold nth at h
  split at h
  · rename_i y hy; cases h; exact List.mem_of_getElem? hy
  · cases h

theorem previousStation_mem {path : List Val} {s sp : Val} (h : previousStation path s = .ok sp) :
    sp = .none ∨ sp ∈ path := by
  unfold previousStation at h
  split at h
  · cases h
  · split at h
    · cases h; exact .inl rfl
    · exact .inr (nth_mem h)

theorem departureStation_cases {s j sp : Val} {place : Dict Val String} {ts : TrainSets}
    (h : departureStation4switches s j place ts = .ok sp) :
    sp = s ∨ sp = .none ∨ ∃ path, (j, path) ∈ ts.paths ∧ sp ∈ path := by
  unfold departureStation4switches at h
  obtain ⟨p, _, h⟩ := bind_ok h
  split at h
  · cases h; exact .inl rfl
  · split at h
    · obtain ⟨path, hp, h⟩ := bind_ok h
      rw [Dict.at!_ok] at hp
      rcases previousStation_mem h with h | h
      · exact .inr (.inl h)
      · exact .inr (.inr ⟨path, Dict.mem_of_get? hp, h⟩)
    · cases h; exact .inr (.inl rfl)

theorem departureStation_U {T U : Val → Prop} {ts : TrainSets} (hn : NamesTU T U ts)
    {s j sp : Val} {place : Dict Val String} (hs : U s)
    (h : departureStation4switches s j place ts = .ok sp) : U sp := by
  rcases departureStation_cases h with rfl | rfl | ⟨path, hp, hm⟩
  · exact hs
  · exact hn.unone
  · exact hn.paths _ hp _ hm

theorem singleLine_steps {T U : Val → Prop} {ts : TrainSets} (hn : NamesTU T U ts)
    {y y' : OrderVars} (h : orderVar4singleLine ts y = .ok y') : Steps T U y y' := by
  refine loop_steps h fun e he a b hab => loop_steps hab fun p hp a b hab => ?_
  obtain ⟨h1, h2, h3⟩ := hn.josingle e he
  exact updateY4_steps (h3 p hp).1 (h3 p hp).2 h1 h2 hab

theorem minimalSpan_steps {T U : Val → Prop} {ts : TrainSets} (hn : NamesTU T U ts)
    {y y' : OrderVars} (h : orderVar4minimalSpan ts y = .ok y') : Steps T U y y' := by
  refine loop_steps h fun e he a b hab => loop_steps hab fun e2 he2 a b hab =>
    loop_steps hab fun g hg a b hab => loop_steps hab fun p hp a b hab => ?_
  have := mem_pairs hp
  exact updateY3_steps (hn.jd e he e2 he2 g hg _ this.1) (hn.jd e he e2 he2 g hg _ this.2) hab

theorem track_steps {T U : Val → Prop} {ts : TrainSets} (hn : NamesTU T U ts)
    {y y' : OrderVars} (h : orderVar4track ts y = .ok y') : Steps T U y y' := by
  refine loop_steps h fun e he a b hab => loop_steps hab fun g hg a b hab =>
    loop_steps hab fun p hp a b hab => ?_
  have := mem_pairs hp
  exact updateY3_steps (hn.jtrack e he g hg _ this.1) (hn.jtrack e he g hg _ this.2) hab

theorem switchBody_steps {T U : Val → Prop} {ts : TrainSets} (hn : NamesTU T U ts) {s : Val}
    (hs : U s) {pair : Dict Val String} (hp : ∀ x ∈ pair, T x.1)
    {y y' : OrderVars} (h : orderVar4switchBody ts s y pair = .ok y') : Steps T U y y' := by
  unfold orderVar4switchBody at h
  split at h
  · rename_i jp a jpp b
    have hjp : T jp := hp (jp, a) (by simp)
    have hjpp : T jpp := hp (jpp, b) (by simp)
    obtain ⟨sp, hsp, h⟩ := bind_ok h
    obtain ⟨spp, hspp, h⟩ := bind_ok h
    have u1 := departureStation_U hn hs hsp
    have u2 := departureStation_U hn hs hspp
    split at h
    · split at h
      · obtain ⟨mo, _, h⟩ := bind_ok h
        split at h
        · exact updateY4in_steps hjp hjpp h
        · exact updateY3_steps hjp hjpp h
      · exact updateY3_steps hjp hjpp h
    · split at h
      · exact updateY4_steps hjp hjpp u1 u2 h
      · exact updateY4in_steps hjp hjpp h
  · cases h

theorem switch_steps {T U : Val → Prop} {ts : TrainSets} (hn : NamesTU T U ts)
    {y y' : OrderVars} (h : orderVar4switch ts y = .ok y') : Steps T U y y' := by
  refine loop_steps h fun e he a b hab => loop_steps hab fun pair hp a b hab => ?_
  exact switchBody_steps hn (hn.jswitch e he).1 ((hn.jswitch e he).2 pair hp) hab

theorem orderVariables_steps {T U : Val → Prop} {ts : TrainSets} (hn : NamesTU T U ts)
    {y : OrderVars} (h : orderVariables ts = .ok y) : Steps T U [] y := by
  unfold orderVariables at h
  obtain ⟨y1, h1, h⟩ := bind_ok h
  obtain ⟨y2, h2, h⟩ := bind_ok h
  obtain ⟨y3, h3, h⟩ := bind_ok h
  exact (((singleLine_steps hn h1).trans (minimalSpan_steps hn h2)).trans (track_steps hn h3)).trans
    (switch_steps hn h)

theorem findP_nil (p : OPath) : findP [] p = .none := rfl

/-! ## Shape of stored variables -/

/-- an order variable: 0/1 integer with the identity given by its place -/
def IsOrderVar (p : OPath) (v : LpVar) : Prop :=
  v.vid = .order p.1 p.2.1 p.2.2.1 p.2.2.2 ∧ v.low = 0 ∧ v.up = 1 ∧ v.cat = .integer

theorem req_isOrderVar {T U : Val → Prop} {p q : OPath} {v : LpVar} (h : Req T U p q v) :
    IsOrderVar p v := by
  cases h <;> exact ⟨rfl, rfl, rfl, rfl⟩

theorem steps_isOrderVar {T U : Val → Prop} {y : OrderVars} (h : Steps T U [] y) :
    ∀ p v, findP y p = some v → IsOrderVar p v := by
  generalize hy0 : ([] : OrderVars) = y0 at h
  induction h with
  | refl => subst hy0; intro p v hp; cases hp
  | @step y' y'' p q v h1 hr ha ih =>
    intro r w hw
    obtain ⟨y3, h3, h4⟩ := addOrder_spec y' p q v
    rw [ha] at h3; cases h3
    rcases h4 with ⟨rfl, _⟩ | ⟨_, _, hall⟩
    · exact ih r w hw
    · rw [hall] at hw
      split at hw
      · rename_i heq; subst heq; cases hw; exact req_isOrderVar hr
      · exact ih r w hw

theorem orderVariables_isOrderVar {ts : TrainSets} {y : OrderVars} (h : orderVariables ts = .ok y)
    {a b c d : Val} {v : LpVar} (hv : at4 y a b c d = .ok v) : IsOrderVar (a, b, c, d) v := by
  rw [at4_ok] at hv
  exact steps_isOrderVar (orderVariables_steps (namesTrue ts) h) (a, b, c, d) v hv

/-! ## Never both orientations -/

/-- the other orientation of a path -/
def swapP (p : OPath) : OPath :=
  if p.1 = inKey then (p.1, p.2.2.1, p.2.1, p.2.2.2)
  else if p.2.2.1 = oneStation then (p.2.1, p.1, p.2.2.1, p.2.2.2)
  else (p.2.1, p.1, p.2.2.2, p.2.2.1)

/-- paths that occur with clash-free names -/
def GoodP (p : OPath) : Prop :=
  p.1 = inKey ∨ (p.1 ≠ inKey ∧ p.2.1 ≠ inKey ∧
    (p.2.2.1 = oneStation ∨ (p.2.2.1 ≠ oneStation ∧ p.2.2.2 ≠ oneStation)))

theorem swapP_swapP {p : OPath} (h : GoodP p) : swapP (swapP p) = p := by
  obtain ⟨a, b, c, d⟩ := p
  rcases h with h | ⟨h1, h2, h3 | ⟨h3, h4⟩⟩
  · simp only at h; subst h; simp [swapP]
  · simp only at h1 h2 h3; subst h3; simp [swapP, h1, h2]
  · simp only at h1 h2 h3 h4; simp [swapP, h1, h2, h3, h4]

theorem req_good {p q : OPath} {v : LpVar} (h : Req (· ≠ inKey) (· ≠ oneStation) p q v) :
    GoodP p ∧ q = swapP p := by
  cases h with
  | y3 j jp s hj hjp => exact ⟨.inr ⟨hj, hjp, .inl rfl⟩, by simp [swapP, hj]⟩
  | y4 j jp s sp hj hjp hs hsp => exact ⟨.inr ⟨hj, hjp, .inr ⟨hs, hsp⟩⟩, by simp [swapP, hj, hs]⟩
  | y4in j jp s hj hjp => exact ⟨.inl rfl, by simp [swapP]⟩

theorem steps_noBoth {y : OrderVars} (h : Steps (· ≠ inKey) (· ≠ oneStation) [] y) :
    ∀ p, findP y p ≠ .none → GoodP p ∧ (swapP p ≠ p → findP y (swapP p) = .none) := by
  generalize hy0 : ([] : OrderVars) = y0 at h
  induction h with
  | refl => subst hy0; intro p hp; exact absurd rfl hp
  | @step y' y'' p q v h1 hr ha ih =>
    intro r hne
    obtain ⟨y3, h3, h4⟩ := addOrder_spec y' p q v
    rw [ha] at h3; cases h3
    obtain ⟨hgood, hq⟩ := req_good hr
    rcases h4 with ⟨rfl, _⟩ | ⟨hp, hq0, hall⟩
    · exact ih r hne
    · rw [hall] at hne ⊢
      by_cases hrp : r = p
      · subst hrp
        refine ⟨hgood, fun hs => ?_⟩
        rw [if_neg hs, ← hq]; exact hq0
      · rw [if_neg hrp] at hne
        obtain ⟨g, hg⟩ := ih r hne
        refine ⟨g, fun hs => ?_⟩
        rw [if_neg, hg hs]
        rintro rfl
        rw [swapP_swapP g] at hq; subst hq
        exact hne hq0

end Verif
