import Verif.Props.Waiting
import Verif.Props.Earliest
import Verif.Props.Loaded

/-!
# C69, false: trains that cannot wait

A train occupies the track on which it begins from its earliest departure on, however long it waits.
So of trains that begin on the same track, all but the last leave by the earliest departure of any
other one that leaves later (`C69_start_order`). Three trains with the same earliest departure cannot
do so, and there is no feasible plan, whatever `d_max` (`C69_blocked`).
-/

namespace Verif

variable {td : Trains} {st : Stations} {table : List PathRow} {t1 : String} {r : Int}
  {delays : List (Int × ℚ)} {ts : TrainSets} {tt : Timetable} {dmax : ℚ} {cat : Cat} {b : Built}
  {σ : LpVar → ℚ}

/-- Train `t` begins in block `bl` of station `x`, which it leaves at `e` at the earliest. It ends in no
station whose name contains the name of `x`, and takes over no rolling stock. -/
structure Begins (td : Trains) (st : Stations) (t1 : String) (r : Int)
    (delays : List (Int × ℚ)) (t : Int) (x bl : String) (e : ℚ) : Prop where
  first : ∃ rows row, TableOf td t rows ∧ FirstStation rows x row ∧ row.path = bl ∧
    Earliest rows t1 r (addedDelay delays t) x e
  goesOn : ∀ n, EndsIn td st t n → ¬ x.toList <:+: n.toList
  alone : ∀ u, Paired u t → u ∉ Dict.keys td

/-- **C69**, trains that begin on the same track: one of them leaves by the earliest departure of the
other one. -/
theorem C69_start_order (G : GoodData td st)
    (h : makeInput td st table t1 r delays = .ok (ts, tt)) (hm : AllMeet td)
    (hb : buildProblem ts tt dmax cat = .ok b) (hf : Feasible b σ) {t t' : Int} {x bl : String}
    {e e' : ℚ} (hne : t ≠ t') (hx : x ∉ ["KO(KS)", "KO(IC)"])
    (hbl : bl ∉ ["\"KO\", \"ST-M\", 1114, \"(N/A)\"", "\"KO\", \"ST-M\", 1113, \"(N/A)\"",
      "\"KO\", \"ST-M\", 1118, \"(N/A)\""])
    (B : Begins td st t1 r delays t x bl e) (B' : Begins td st t1 r delays t' x bl e') {d d' : ℚ}
    (hd : Departs ts tt b.dv σ (.int t) (.str x) d)
    (hd' : Departs ts tt b.dv σ (.int t') (.str x) d') : d ≤ e' ∨ d' ≤ e := by
  have g := gen_of_input G h
  obtain ⟨rows, row, ht, hfs, hp, he⟩ := B.first
  obtain ⟨rows', row', ht', hfs', hp', he'⟩ := B'.first
  have hmem : ∀ {rows : List Row} {row : Row}, FirstStation rows x row → row ∈ rows ∧
      row.station = some x := by
    rintro rows row ⟨pre, post, e, hs, -⟩
    exact ⟨by rw [e]; simp, hs⟩
  have hkey : ∀ {t rows}, TableOf td t rows → t ∈ Dict.keys td := fun ht => by
    obtain ⟨info, hm⟩ := ht.mem
    exact List.mem_map.2 ⟨_, hm, rfl⟩
  obtain ⟨gs, hgs, gr, hgr, hj, hj'⟩ := g.sameTrack ht ht' (hmem hfs).1 (hmem hfs').1 (hmem hfs).2
    (hmem hfs').2 (hp.trans hp'.symm) hx (by rw [hp]; exact hbl)
  have hcont : ∀ {t : Int}, (∀ n, EndsIn td st t n → ¬ x.toList <:+: n.toList) →
      ∀ k, ¬ ContinuedBy ts (.int t) (.str x) k := by
    intro t hend k hk
    obtain ⟨x', a, a', e1, e2, -, he⟩ := g.continued hm hk
    cases e1; cases e2
    exact hend x he (List.infix_refl _)
  have hst : ¬ Paired t t' := fun hp => B'.alone t hp (hkey ht)
  obtain ⟨res, hres, hall⟩ := C04_stationTrack_partial hb g.namesOK hf (Dict.mem_of_get? hgs) hgr
    (j := .int t) (jp := .int t') hj hj'
    (fun e => hne (by cases e; rfl)) (g.notSame hm hst) (g.notExempt B.goesOn) (g.notExempt B'.goesOn)
    (hcont B.goesOn) (hcont B'.goesOn)
  have hres0 : res = 0 := by
    rcases hres with ⟨⟨l, hl, -⟩, -⟩ | ⟨-, h0⟩
    · rw [g.noAdd] at hl; cases hl
    · exact h0
  subst hres0
  have arr : ∀ {t : Int} {e d : ℚ} {rows row}, TableOf td t rows → FirstStation rows x row →
      Earliest rows t1 r (addedDelay delays t) x e → (∀ u, Paired u t → u ∉ Dict.keys td) →
      Departs ts tt b.dv σ (.int t) (.str x) d →
      Arrives ts tt (Departs ts tt b.dv σ) (.int t) (.str x) e := by
    intro t e d rows row ht hfs he hal hd
    refine .inr (.inr ⟨?_, g.prev.2 ⟨t, x, rows, rfl, rfl, ht, .inr ⟨rfl, row, hfs⟩⟩, ?_⟩)
    · rintro k ⟨ps, h1, h2, -⟩
      obtain ⟨x', u, u', e1, e2, hu, -, hp', -⟩ := g.round hm h1 (List.mem_of_find?_eq_some h2)
      cases e2
      exact hal u hp' hu
    · obtain ⟨e', v, -, hv, -⟩ := hd
      obtain ⟨t', x', e1, e2, hl⟩ := g.leaves_of_delay
        ((delayVariables_find (parts hb).hdv).1 (delayAt_ok.1 hv)).1
      cases e1; cases e2
      exact (C70_earliest G h ht hl).2 he
  have := hall d _ d' _ hd hd' (arr ht hfs he B.alone hd) (arr ht' hfs' he' B'.alone hd')
  simpa using this

/-- Three trains begin on the same track at the same time, and pass a common switch when they
leave. -/
structure Blocked (td : Trains) (st : Stations) (table : List PathRow) (t1 : String) (r : Int)
    (delays : List (Int × ℚ)) (l : List Int) (x bl : String) (z : Int) (e : ℚ) : Prop where
  three : l.length = 3 ∧ l.Nodup
  station : x ∉ ["KO(KS)", "KO(IC)", "KO(STM)"]
  block : bl ∉ ["\"KO\", \"ST-M\", 1114, \"(N/A)\"", "\"KO\", \"ST-M\", 1113, \"(N/A)\"",
    "\"KO\", \"ST-M\", 1118, \"(N/A)\""]
  begins : ∀ t ∈ l, Begins td st t1 r delays t x bl e
  switch : ∀ t ∈ l, ∃ S, SwitchesAt td table t x "out" S ∧ z ∈ S

/-- **C69**, false: three trains that begin on the same track at the same time have no feasible plan,
whatever `d_max`. -/
theorem C69_blocked (G : GoodData td st)
    (h : makeInput td st table t1 r delays = .ok (ts, tt)) (hm : AllMeet td) (hcells : SameCells table)
    {l : List Int} {x bl : String} {z : Int} {e : ℚ} (B : Blocked td st table t1 r delays l x bl z e)
    (hb : buildProblem ts tt dmax cat = .ok b) : ¬ ∃ σ, Feasible b σ := by
  rintro ⟨σ, hf⟩
  have g := gen_of_input G h
  -- each of the trains leaves at some time
  have hdep : ∀ t ∈ l, ∃ d, Departs ts tt b.dv σ (.int t) (.str x) d ∧ e ≤ d := by
    intro t ht
    obtain ⟨rows, row, htab, hfs, -, he⟩ := (B.begins t ht).first
    have hl : Leaves td t x := by
      refine (leaves_iff G).2 ⟨⟨rows, htab, row, ?_, ?_⟩, fun hE => (B.begins t ht).goesOn x hE
        (List.infix_refl _)⟩
      · obtain ⟨pre, post, e, -, -⟩ := hfs
        rw [e]; simp
      · obtain ⟨pre, post, -, hs, -⟩ := hfs
        exact hs
    obtain ⟨v, hv⟩ := g.delayAt hm (parts hb).hdv hl
    have hE := (C70_earliest G h htab hl).2 he
    refine ⟨_, ⟨e, v, hE, hv, rfl⟩, ?_⟩
    obtain ⟨h1, -⟩ := delay_bounds (parts hb).hdv hf.adm.delays hv
    linarith
  -- no two of them at the same time, and one of two at once
  have hkey : ∀ {t}, t ∈ l → t ∈ Dict.keys td := fun {t} ht => by
    obtain ⟨rows, row, htab, -⟩ := (B.begins t ht).first
    obtain ⟨info, hm⟩ := htab.mem
    exact List.mem_map.2 ⟨_, hm, rfl⟩
  have hx : x ∉ ["KO(KS)", "KO(IC)"] ∧ x ∉ ["KO(IC)", "KO(KS)"] ∧ x ≠ "KO(STM)" := by
    have := B.station
    simp only [List.mem_cons, not_or] at this ⊢
    tauto
  have hpair : ∀ t ∈ l, ∀ t' ∈ l, t ≠ t' → ∀ d d', Departs ts tt b.dv σ (.int t) (.str x) d →
      Departs ts tt b.dv σ (.int t') (.str x) d' → (d ≤ e ∨ d' ≤ e) ∧ d ≠ d' := by
    intro t ht t' ht' hne d d' hd hd'
    refine ⟨C69_start_order G h hm hb hf hne hx.1 B.block (B.begins t ht) (B.begins t' ht') hd hd', ?_⟩
    obtain ⟨S, hS, hz⟩ := B.switch t ht
    obtain ⟨S', hS', hz'⟩ := B.switch t' ht'
    have := C60_switches_partial G h hm hb hf hcells hne hx.2.1 (fun e => absurd e hx.2.2) hS hS' hz
      hz' (fun hp => (B.begins t' ht').alone t hp (hkey ht)) (.inl ⟨rfl, hd⟩) (.inl ⟨rfl, hd'⟩)
    rintro rfl
    rcases this with h | h <;> linarith
  match l, B.three, hdep, hpair with
  | [u, v, w], ⟨_, hnd⟩, hdep, hpair =>
    obtain ⟨du, hdu, hu⟩ := hdep u (by simp)
    obtain ⟨dv, hdv, hv⟩ := hdep v (by simp)
    obtain ⟨dw, hdw, hw⟩ := hdep w (by simp)
    simp only [List.nodup_cons, List.mem_cons, List.not_mem_nil, or_false, not_or] at hnd
    obtain ⟨⟨n1, n2⟩, n3, -⟩ := hnd
    obtain ⟨a1, b1⟩ := hpair u (by simp) v (by simp) n1 du dv hdu hdv
    obtain ⟨a2, b2⟩ := hpair u (by simp) w (by simp) n2 du dw hdu hdw
    obtain ⟨a3, b3⟩ := hpair v (by simp) w (by simp) n3 dv dw hdv hdw
    rcases a1 with a1 | a1 <;> rcases a2 with a2 | a2 <;> rcases a3 with a3 | a3 <;>
      first
        | exact b1 (by linarith)
        | exact b2 (by linarith)
        | exact b3 (by linarith)

end Verif
