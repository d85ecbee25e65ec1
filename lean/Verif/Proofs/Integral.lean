import Verif.Proofs.Origin

/-!
# Integer times give integer coefficients
-/

namespace Verif

/-- the number is an integer -/
def IsInt (q : ℚ) : Prop := ∃ n : ℤ, q = n

theorem isInt_int (n : ℤ) : IsInt n := ⟨n, rfl⟩
theorem isInt_zero : IsInt 0 := ⟨0, by norm_num⟩
theorem isInt_one : IsInt 1 := ⟨1, by norm_num⟩
theorem IsInt.add {a b : ℚ} (ha : IsInt a) (hb : IsInt b) : IsInt (a + b) := by
  obtain ⟨n, rfl⟩ := ha; obtain ⟨m, rfl⟩ := hb; exact ⟨n + m, by push_cast; rfl⟩
theorem IsInt.sub {a b : ℚ} (ha : IsInt a) (hb : IsInt b) : IsInt (a - b) := by
  obtain ⟨n, rfl⟩ := ha; obtain ⟨m, rfl⟩ := hb; exact ⟨n - m, by push_cast; rfl⟩
theorem IsInt.mul {a b : ℚ} (ha : IsInt a) (hb : IsInt b) : IsInt (a * b) := by
  obtain ⟨n, rfl⟩ := ha; obtain ⟨m, rfl⟩ := hb; exact ⟨n * m, by push_cast; rfl⟩
theorem IsInt.max {a b : ℚ} (ha : IsInt a) (hb : IsInt b) : IsInt (max a b) := by
  rcases max_choice a b with h | h <;> rw [h] <;> assumption
theorem isInt_iff_den {q : ℚ} : IsInt q ↔ q.den = 1 := by
  constructor
  · rintro ⟨n, rfl⟩; rfl
  · intro h; exact ⟨q.num, (Rat.den_eq_one_iff q).1 h |>.symm⟩

/-- all values of the dictionary are integers -/
def IntValues (d : Dict String ℚ) : Prop := ∀ e ∈ d, IsInt e.2

/-- all times of the timetable are integers (the weights may be anything) -/
structure IntTimes (tt : Timetable) : Prop where
  pass : IntValues tt.tauPass
  headway : IntValues tt.tauHeadway
  stop : IntValues tt.tauStop
  prep : IntValues tt.tauPrep
  res : ∀ r, tt.tauRes = some r → IsInt r
  schedule : ∀ d, tt.schedule = some d → IntValues d
  initial : IntValues tt.initialConditions

theorem IntValues.at {d : Dict String ℚ} (h : IntValues d) {k : String} {v : ℚ}
    (hk : Dict.at! d k = .ok v) : IsInt v :=
  h _ (Dict.mem_of_get? (Dict.at!_ok.1 hk))

section
variable {ts : TrainSets} {tt : Timetable} {dmax : ℚ} {dv : DelayVars} {y : OrderVars}

theorem maxSched_int (h : IntTimes tt) {j s : Val} {x : ℚ} (hx : IsInt x) :
    IsInt (maxSched (schedOf tt j s) x) := by
  unfold maxSched schedOf
  split
  · rename_i t ht
    split at ht
    · rename_i d hd
      exact (h.schedule d hd _ (Dict.mem_of_get? ht)).max hx
    · cases ht
  · exact hx

theorem edt_int (h : IntTimes tt) {S : Dict Val (List Val)} {j s : Val} {x : ℚ}
    (hx : earliestDepTime S tt j s = .ok x) : IsInt x := by
  unfold earliestDepTime at hx
  revert hx
  generalize ((Dict.get? S j).getD []).length + 2 = n
  intro hx
  induction n generalizing s x with
  | zero => cases hx
  | succ n ih =>
    unfold edtFuel at hx
    split at hx
    · rename_i u hu
      cases hx
      exact maxSched_int h (h.initial _ (Dict.mem_of_get? hu))
    · obtain ⟨path, _, hx⟩ := bind_ok hx
      obtain ⟨sp, _, hx⟩ := bind_ok hx
      obtain ⟨tp, htp, hx⟩ := bind_ok hx
      obtain ⟨st, hst, hx⟩ := bind_ok hx
      obtain ⟨e, he, hx⟩ := bind_ok hx
      cases hx
      exact maxSched_int h (((ih he).add (h.pass.at htp)).add (h.stop.at hst))

theorem getM_int {a b d : ℚ} (ha : IsInt a) (hb : IsInt b) (hd : IsInt d) : IsInt (getM a b d) :=
  ((hb.add hd).sub ha).max isInt_one

/-- coefficients and constant are integers -/
def IntExpr (e : LinExpr) : Prop := (∀ t ∈ e.terms, IsInt t.2) ∧ IsInt e.const

theorem intExpr_num {c : ℚ} (h : IsInt c) : IntExpr (.num c) := ⟨by simp [LinExpr.num], h⟩

theorem intExpr_var {v : LpVar} : IntExpr (.var v) := by
  refine ⟨fun t ht => ?_, isInt_zero⟩
  simp only [LinExpr.var, List.mem_singleton] at ht
  subst ht; exact isInt_one

theorem addTerm_int {t : List (LpVar × ℚ)} {v : LpVar} {c : ℚ} (ht : ∀ x ∈ t, IsInt x.2)
    (hc : IsInt c) : ∀ x ∈ LinExpr.addTerm t v c, IsInt x.2 := by
  induction t with
  | nil => intro x hx; simp only [LinExpr.addTerm, List.mem_singleton] at hx; subst hx; exact hc
  | cons p t ih =>
    obtain ⟨v', c'⟩ := p
    rw [List.forall_mem_cons] at ht
    simp only [LinExpr.addTerm]
    split
    · rw [List.forall_mem_cons]; exact ⟨ht.1.add hc, ht.2⟩
    · rw [List.forall_mem_cons]; exact ⟨ht.1, ih ht.2⟩

theorem IntExpr.add {e f : LinExpr} (he : IntExpr e) (hf : IntExpr f) : IntExpr (e.add f) := by
  refine ⟨?_, he.2.add hf.2⟩
  have : ∀ (u t : List (LpVar × ℚ)), (∀ x ∈ t, IsInt x.2) → (∀ x ∈ u, IsInt x.2) →
      ∀ x ∈ u.foldl (fun acc t => LinExpr.addTerm acc t.1 t.2) t, IsInt x.2 := by
    intro u
    induction u with
    | nil => intro t ht _; exact ht
    | cons p u ih =>
      intro t ht hu
      rw [List.forall_mem_cons] at hu
      exact ih _ (addTerm_int ht hu.1) hu.2
  exact this _ _ he.1 hf.1

theorem IntExpr.smul {c : ℚ} {e : LinExpr} (hc : IsInt c) (he : IntExpr e) :
    IntExpr (.smul c e) := by
  unfold LinExpr.smul
  split
  · exact ⟨by simp, isInt_zero⟩
  · refine ⟨fun t ht => ?_, hc.mul he.2⟩
    obtain ⟨t', ht', rfl⟩ := List.mem_map.1 ht
    exact hc.mul (he.1 t' ht')

theorem IntExpr.sub {e f : LinExpr} (he : IntExpr e) (hf : IntExpr f) : IntExpr (e.sub f) :=
  he.add (hf.smul ⟨-1, by norm_num⟩)

theorem intExpr_getP {p q : OPath} {e : LinExpr} (h : getP y p q = .ok e) : IntExpr e := by
  unfold getP at h
  split at h
  · obtain ⟨v, hv, h⟩ := bind_ok h; cases h
    exact intExpr_var
  · obtain ⟨v, hv, h⟩ := bind_ok h; cases h
    exact (intExpr_num isInt_one).sub intExpr_var

theorem int3 {j jp s : Val} {e : LinExpr} (h : getY3 y j jp s = .ok e) : IntExpr e :=
  intExpr_getP (p := (j, jp, oneStation, s)) (q := (jp, j, oneStation, s)) h

theorem int4 {j jp s sp : Val} {e : LinExpr} (h : getY4singleline y j jp s sp = .ok e) :
    IntExpr e :=
  intExpr_getP (p := (j, jp, s, sp)) (q := (jp, j, sp, s)) h

theorem intIn {a j jp s : Val} {e : LinExpr} (h : getY4in y a j jp s = .ok e) : IntExpr e :=
  intExpr_getP (p := (a, j, jp, s)) (q := (a, jp, j, s)) h

/-- the constraint has integer data -/
def IntNamed (c : Named) : Prop := IntExpr c.2.expr

theorem int_mk {s : String} {l r : LinExpr} (hl : IntExpr l) (hr : IntExpr r) :
    IntNamed (s, .mkGE l r) := hl.sub hr

theorem int_mkEQ {s : String} {l r : LinExpr} (hl : IntExpr l) (hr : IntExpr r) :
    IntNamed (s, .mkEQ l r) := hl.sub hr

theorem minimalSpan_int (h : IntTimes tt) (hd : IsInt dmax) :
    Emits IntNamed (minimalSpan tt dv y ts dmax) := by
  have key : ∀ s sp j jp, Emits IntNamed (minimalSpanConstrain s sp j jp tt dv y ts dmax) := by
    intro s sp j jp
    unfold minimalSpanConstrain
    refine emits_bind fun lhs hl => emits_bind fun e he => emits_bind fun hw hhw => ?_
    have hr := (edt_int h he).add (h.headway.at hhw)
    simp only
    split
    · refine emits_bind fun dl _ => emits_bind fun dr _ => emits_bind fun yv hyv => ?_
      exact emits_single (int_mk ((intExpr_num (edt_int h hl)).add intExpr_var)
        (((intExpr_num hr).add intExpr_var).sub ((int3 hyv).smul (getM_int (edt_int h hl) hr hd))))
    · exact emits_nil
  unfold minimalSpan
  exact emits_collect fun e _ => emits_collect fun e2 _ => emits_collect fun js _ =>
    emits_collect fun p _ => emits_append (key _ _ _ _) (key _ _ _ _)

theorem singleLine_int (h : IntTimes tt) (hd : IsInt dmax) :
    Emits IntNamed (singleLine tt dv y ts dmax) := by
  have key : ∀ s sp j jp, Emits IntNamed (singleLineConstrain s sp j jp tt dv y ts dmax) := by
    intro s sp j jp
    unfold singleLineConstrain
    refine emits_bind fun lhs hl => emits_bind fun e he => emits_bind fun hw hhw => ?_
    have hr := (edt_int h he).add (h.pass.at hhw)
    simp only
    split
    · refine emits_bind fun dl _ => emits_bind fun dr _ => emits_bind fun yv hyv => ?_
      exact emits_single (int_mk ((intExpr_num (edt_int h hl)).add intExpr_var)
        (((intExpr_num hr).add intExpr_var).sub ((int4 hyv).smul (getM_int (edt_int h hl) hr hd))))
    · exact emits_nil
  unfold singleLine
  refine emits_collect fun e _ => emits_collect fun p _ => ?_
  split
  · exact emits_append (key _ _ _ _) (key _ _ _ _)
  · exact emits_nil

theorem minimalStay_int (h : IntTimes tt) : Emits IntNamed (minimalStay tt dv ts) := by
  unfold minimalStay
  refine emits_collect fun j _ => emits_bind fun path _ => emits_collect fun s _ => ?_
  unfold minimalStayConstrain
  refine emits_bind fun path _ => emits_bind fun sp _ => ?_
  split
  · refine emits_bind fun dj hdj => ?_
    split
    · refine emits_bind fun lhs hl => emits_bind fun dp _ => emits_bind fun e he =>
        emits_bind fun p hp => emits_bind fun st hst => ?_
      exact emits_single (int_mk (intExpr_var.add (intExpr_num (edt_int h hl)))
        (((intExpr_var.add (intExpr_num (edt_int h he))).add (intExpr_num (h.pass.at hp))).add
          (intExpr_num (h.stop.at hst))))
    · exact emits_nil
  · exact emits_nil

theorem keepTrainsOrder_int {s j jp : Val} : Emits IntNamed (keepTrainsOrder s j jp y ts) := by
  unfold keepTrainsOrder
  refine emits_bind fun path _ => emits_bind fun sp _ => ?_
  split
  · exact emits_nil
  · split
    · refine emits_bind fun g _ => ?_
      split
      · refine emits_bind fun mo _ => ?_
        split
        · refine emits_bind fun y1 h1 => emits_bind fun y2 h2 => emits_bind fun y3 h3 => ?_
          split
          · exact emits_single (int_mkEQ intExpr_var intExpr_var)
          · exact emits_nil
        · split
          · refine emits_bind fun l hl => emits_bind fun r hr => ?_
            exact emits_single (int_mkEQ (intIn hl) intExpr_var)
          · exact emits_nil
      · exact emits_nil
    · exact emits_nil

theorem arrivalRef_int (h : IntTimes tt) {s jp : Val} {x : ℚ × Option (Val × Val)}
    (hx : arrivalRef s jp tt ts = .ok x) : IsInt x.1 := by
  unfold arrivalRef at hx
  simp only at hx
  obtain ⟨path, _, hx⟩ := bind_ok hx
  obtain ⟨sp, _, hx⟩ := bind_ok hx
  split at hx
  · obtain ⟨pr, _, hx⟩ := bind_ok hx
    obtain ⟨srp, _, hx⟩ := bind_ok hx
    obtain ⟨e, he, hx⟩ := bind_ok hx
    obtain ⟨p, hp, hx⟩ := bind_ok hx
    cases hx
    exact (edt_int h he).add (h.pass.at hp)
  · split at hx
    · obtain ⟨e, he, hx⟩ := bind_ok hx
      obtain ⟨p, hp, hx⟩ := bind_ok hx
      cases hx
      exact (edt_int h he).add (h.pass.at hp)
    · obtain ⟨e, he, hx⟩ := bind_ok hx
      cases hx
      exact edt_int h he

theorem tauRes_int (h : IntTimes tt) {r : ℚ} (hr : tauRes tt = .ok r) : IsInt r := by
  unfold tauRes at hr
  split at hr
  · rename_i r' hr'; cases hr; exact h.res _ hr'
  · cases hr

theorem addSwitchRes_int (h : IntTimes tt) {s : Val} {r : ℚ} (hr : addSwitchRes s tt ts = .ok r) :
    IsInt r := by
  unfold addSwitchRes at hr
  split at hr
  · cases hr; exact isInt_zero
  · split at hr
    · exact tauRes_int h hr
    · cases hr; exact isInt_zero

theorem arrivalExpr_int {lhs : ℚ} (hl : IsInt lhs) {ref : Option (Val × Val)} {e : LinExpr}
    (h : arrivalExpr dv lhs ref = .ok e) : IntExpr e := by
  unfold arrivalExpr at h
  split at h
  · obtain ⟨v, hv, h⟩ := bind_ok h; cases h
    exact (intExpr_num hl).add intExpr_var
  · cases h; exact intExpr_num hl

theorem trainsOrderAtS_int (h : IntTimes tt) (hd : IsInt dmax) {s j jp : Val} :
    Emits IntNamed (trainsOrderAtS s j jp tt dv y ts dmax) := by
  unfold trainsOrderAtS
  simp only
  split
  · refine emits_bind fun l hl => emits_bind fun r hr => ?_
    exact emits_single (int_mkEQ (int3 hl) (int3 hr))
  · refine emits_bind fun x hx => emits_bind fun e he => emits_bind fun res hres => ?_
    have hr := (edt_int h he).add (addSwitchRes_int h hres)
    have hxi := arrivalRef_int h hx
    split
    · refine emits_bind fun l hl => emits_bind fun yv hyv => emits_bind fun dj hdj => ?_
      exact emits_single (int_mk ((arrivalExpr_int hxi hl).sub intExpr_var)
        ((intExpr_num hr).sub ((int3 hyv).smul (getM_int hxi hr hd))))
    · exact emits_nil

theorem trackOccupation_int (h : IntTimes tt) (hd : IsInt dmax) :
    Emits IntNamed (trackOccupation tt dv y ts dmax) := by
  unfold trackOccupation
  refine emits_collect fun e _ => emits_collect fun js _ => emits_collect fun p _ => ?_
  unfold trackOccBody
  split
  · refine emits_append ?_ ?_
    · unfold trackOccFirst
      refine emits_bind fun sk _ => ?_
      split
      · exact emits_append keepTrainsOrder_int (trainsOrderAtS_int h hd)
      · exact emits_nil
    · unfold trackOccSecond
      refine emits_bind fun sk _ => ?_
      split
      · exact trainsOrderAtS_int h hd
      · exact emits_nil
  · exact emits_nil

theorem rollingStockCirc_int (h : IntTimes tt) : Emits IntNamed (rollingStockCirc tt dv ts dmax) := by
  unfold rollingStockCirc
  refine emits_collect fun e _ => emits_collect fun p _ => ?_
  unfold circBody
  refine emits_bind fun path _ => emits_bind fun sp _ => emits_bind fun l hl =>
    emits_bind fun r hr => emits_bind fun p hp => emits_bind fun pr hpr => ?_
  simp only
  split
  · refine emits_bind fun dl hdl => emits_bind fun dr hdr => ?_
    exact emits_single (int_mk ((intExpr_num (edt_int h hr)).add intExpr_var)
      ((intExpr_num (((edt_int h hl).add (h.pass.at hp)).add (h.prep.at hpr))).add intExpr_var))
  · exact emits_nil

theorem switchOrderVar_int {s jp sp jpp spp : Val} {e : LinExpr}
    (h : switchOrderVar s jp sp jpp spp y ts = .ok e) : IntExpr e := by
  unfold switchOrderVar at h
  split at h
  · split at h
    · obtain ⟨mo, _, h⟩ := bind_ok h
      split at h
      · exact intIn h
      · exact int3 h
    · exact int3 h
  · split at h
    · exact int4 h
    · exact intIn h

theorem passTo_int (h : IntTimes tt) {j sp s : Val} {p : ℚ} (hp : passTo tt j sp s = .ok p) :
    IsInt p := by
  unfold passTo at hp
  split at hp
  · exact h.pass.at hp
  · cases hp; exact isInt_zero

theorem switchOccupation_int (h : IntTimes tt) (hd : IsInt dmax) :
    Emits IntNamed (switchOccupation tt dv y ts dmax) := by
  have key : ∀ s jp sp jpp spp, Emits IntNamed (switchOcc s jp sp jpp spp tt dv y ts dmax) := by
    intro s jp sp jpp spp
    unfold switchOcc
    refine emits_bind fun l hl => emits_bind fun r hr => emits_bind fun res hres =>
      emits_bind fun pl hpl => emits_bind fun pr hpr => ?_
    have h1 := (edt_int h hl).add (passTo_int h hpl)
    have h2 := ((edt_int h hr).add (tauRes_int h hres)).add (passTo_int h hpr)
    simp only
    split
    · refine emits_bind fun yv hyv => emits_bind fun dl hdl => emits_bind fun dr hdr => ?_
      exact emits_single (int_mk ((intExpr_num h1).add intExpr_var)
        (((intExpr_num h2).sub ((switchOrderVar_int hyv).smul (getM_int h1 h2 hd))).add intExpr_var))
    · exact emits_nil
  unfold switchOccupation
  refine emits_collect fun e _ => emits_collect fun pair _ => ?_
  unfold switchBody
  split
  · split
    · refine emits_bind fun sp _ => emits_bind fun spp _ => ?_
      exact emits_append (key _ _ _ _ _) (key _ _ _ _ _)
    · exact emits_nil
  · exact emits_error

end

end Verif
