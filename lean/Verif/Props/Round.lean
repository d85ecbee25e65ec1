import Verif.Props.Weights
import Verif.Props.Following

/-!
# C31: trains with the same rolling stock
-/

namespace Verif

/-- the first block of the train -/
def FirstBlock (td : Trains) (t : Int) (b : String) : Prop :=
  ∃ tt r, TableOf td t tt ∧ tt.head? = some r ∧ r.path = b
/-- the last block of the train -/
def LastBlock (td : Trains) (t : Int) (b : String) : Prop :=
  ∃ tt r, TableOf td t tt ∧ tt.getLast? = some r ∧ r.path = b
/-- the first train ends in the block where the second one begins -/
def Meets (td : Trains) (x y : Int) (b : String) : Prop := LastBlock td x b ∧ FirstBlock td y b

theorem pathOf_iff {td : Trains} {t : Int} {p : List String} :
    pathOf td t = .ok p ↔ ∃ tt, TableOf td t tt ∧ p = tt.map (·.path) := by
  unfold pathOf trainTimeTable
  constructor
  · intro h
    obtain ⟨tt, ht, h⟩ := bind_ok h
    obtain ⟨e, he, ht⟩ := bind_ok ht
    cases ht; cases h
    exact ⟨e.2, ⟨e.1, Dict.at!_ok.1 he⟩, rfl⟩
  · rintro ⟨tt, ⟨info, ht⟩, rfl⟩
    rw [show Dict.at! td t = .ok (info, tt) from Dict.at!_ok.2 ht]
    rfl

theorem nth_zero_iff {α : Type} {l : List α} {x : α} : nth l 0 = .ok x ↔ l.head? = some x := by
  cases l with
  | nil => simp [nth]
  | cons a l => simp [nth]

theorem last_iff {α : Type} {l : List α} {x : α} : last l = .ok x ↔ l.getLast? = some x := by
  unfold last
  cases l.getLast? with
  | none => simp
  | some y => simp

theorem firstBlock_iff {td : Trains} {t : Int} {p : List String} (hp : pathOf td t = .ok p)
    {b : String} : FirstBlock td t b ↔ nth p 0 = .ok b := by
  obtain ⟨tt, ht, rfl⟩ := pathOf_iff.1 hp
  rw [nth_zero_iff, List.head?_map]
  constructor
  · rintro ⟨tt', r, ht', h, rfl⟩
    cases ht.unique ht'
    rw [h]; rfl
  · intro h
    cases hh : tt.head? with
    | none => rw [hh] at h; cases h
    | some r =>
      rw [hh] at h; cases h
      exact ⟨tt, r, ht, hh, rfl⟩

theorem lastBlock_iff {td : Trains} {t : Int} {p : List String} (hp : pathOf td t = .ok p)
    {b : String} : LastBlock td t b ↔ last p = .ok b := by
  obtain ⟨tt, ht, rfl⟩ := pathOf_iff.1 hp
  rw [last_iff, List.getLast?_map]
  constructor
  · rintro ⟨tt', r, ht', h, rfl⟩
    cases ht.unique ht'
    rw [h]; rfl
  · intro h
    cases hh : tt.getLast? with
    | none => rw [hh] at h; cases h
    | some r =>
      rw [hh] at h; cases h
      exact ⟨tt, r, ht, hh, rfl⟩

/-- what is listed for a pair of numbers `n`, `10 n + 9` that meets, and under which station -/
def FoundRound (td : Trains) (st : Stations) (p : Int × Int) (s : String) (q : Int × Int) : Prop :=
  ∃ b, getBlockStation b st = some s ∧
    ((Meets td p.2 p.1 b ∧ q = (p.2, p.1)) ∨
     (Meets td p.1 p.2 b ∧ (∀ b', ¬ Meets td p.2 p.1 b') ∧ q = p))

theorem jroundStep_meets {td : Trains} {st : Stations}
    {acc acc' : Dict String (List (Int × Int)) × Option String} {p : Int × Int}
    (hm : ∃ b, Meets td p.1 p.2 b ∨ Meets td p.2 p.1 b)
    (h : jroundStep td st acc p = .ok acc') :
    ∃ s q, (∀ s' q', FoundRound td st p s' q' ↔ s' = s ∧ q' = q) ∧
      acc'.1 = Dict.set acc.1 s ((Dict.get? acc.1 s).getD [] ++ [q]) := by
  unfold jroundStep at h
  obtain ⟨p0, hp0, h⟩ := bind_ok h
  obtain ⟨p1, hp1, h⟩ := bind_ok h
  obtain ⟨f0, hf0, h⟩ := bind_ok h
  obtain ⟨l1, hl1, h⟩ := bind_ok h
  obtain ⟨f1, hf1, h⟩ := bind_ok h
  obtain ⟨l0, hl0, h⟩ := bind_ok h
  have m10 : ∀ b, Meets td p.2 p.1 b ↔ b = l1 ∧ b = f0 := by
    intro b
    unfold Meets
    rw [firstBlock_iff hp0, lastBlock_iff hp1, hf0, hl1]
    simp only [Except.ok.injEq, eq_comm]
  have m01 : ∀ b, Meets td p.1 p.2 b ↔ b = l0 ∧ b = f1 := by
    intro b
    unfold Meets
    rw [firstBlock_iff hp1, lastBlock_iff hp0, hf1, hl0]
    simp only [Except.ok.injEq, eq_comm]
  have hstation : ∀ {b s : String},
      nth ((st.filter fun e => decide (b ∈ e.2)).map Prod.fst) 0 = .ok s ↔
        getBlockStation b st = some s := by
    intro b s
    rw [nth_zero_iff]; rfl
  simp only at h
  by_cases h1 : f0 = l1
  · rw [if_pos h1] at h
    simp only at h
    obtain ⟨s, hs, h⟩ := bind_ok h
    cases h
    refine ⟨s, (p.2, p.1), ?_, rfl⟩
    intro s' q'
    rw [hstation] at hs
    constructor
    · rintro ⟨b, hb, ⟨hmt, rfl⟩ | ⟨_, hn, _⟩⟩
      · rw [((m10 b).1 hmt).2, hs] at hb
        cases hb; exact ⟨rfl, rfl⟩
      · exact absurd ((m10 f0).2 ⟨h1, rfl⟩) (hn f0)
    · rintro ⟨rfl, rfl⟩
      exact ⟨f0, hs, .inl ⟨(m10 f0).2 ⟨h1, rfl⟩, rfl⟩⟩
  · rw [if_neg h1] at h
    have hn : ∀ b', ¬ Meets td p.2 p.1 b' := by
      intro b' hb'
      obtain ⟨e1, e2⟩ := (m10 b').1 hb'
      exact h1 (e2.symm.trans e1)
    have h2 : f1 = l0 := by
      obtain ⟨b, hb | hb⟩ := hm
      · obtain ⟨e1, e2⟩ := (m01 b).1 hb
        exact e2.symm.trans e1
      · exact absurd hb (hn b)
    rw [if_pos h2] at h
    simp only at h
    obtain ⟨s, hs, h⟩ := bind_ok h
    cases h
    refine ⟨s, p, ?_, rfl⟩
    intro s' q'
    rw [hstation] at hs
    constructor
    · rintro ⟨b, hb, ⟨hmt, rfl⟩ | ⟨hmt, _, rfl⟩⟩
      · exact absurd hmt (hn b)
      · rw [((m01 b).1 hmt).2, hs] at hb
        cases hb; exact ⟨rfl, rfl⟩
    · rintro ⟨rfl, rfl⟩
      exact ⟨f1, hs, .inr ⟨(m01 f1).2 ⟨h2, rfl⟩, hn, rfl⟩⟩

/-- the two trains have the numbers `n` and `10 n + 9`, in one order or the other -/
def Pair9 (td : Trains) (x y : Int) : Prop :=
  x ∈ Dict.keys td ∧ y ∈ Dict.keys td ∧ (y = 10 * x + 9 ∨ x = 10 * y + 9)

/-- C31, full statement: under `s` exactly the pairs are listed of which the first train ends in a
block of `s` where the second begins; if some pair does not meet, the data are rejected. -/
def C31_statement (td : Trains) (st : Stations) : Prop :=
  (∀ d, getJround td st = .ok d → ∀ s x y,
    (∃ l, Dict.get? d s = some l ∧ (x, y) ∈ l) ↔
      Pair9 td x y ∧ ∃ b, Meets td x y b ∧ BelongsTo st b s) ∧
  ((∃ x y, Pair9 td x y ∧ ∀ b, ¬ Meets td x y b ∧ ¬ Meets td y x b) → ∃ e, getJround td st = .error e)

theorem round_loop {td : Trains} {st : Stations} {ps : List (Int × Int)}
    (hm : ∀ p ∈ ps, ∃ b, Meets td p.1 p.2 b ∨ Meets td p.2 p.1 b)
    {acc : Dict String (List (Int × Int)) × Option String}
    (h : loop ps (jroundStep td st) ([], none) = .ok acc) (s : String) (q : Int × Int) :
    (∃ l, Dict.get? acc.1 s = some l ∧ q ∈ l) ↔ ∃ p ∈ ps, FoundRound td st p s q := by
  induction ps using List.reverseRecOn generalizing acc with
  | nil =>
    simp only [loop, Except.ok.injEq] at h
    subst h
    simp [Dict.get?]
  | append_singleton ps p ih =>
    rw [loop_append] at h
    obtain ⟨acc1, h1, h⟩ := bind_ok h
    have ih := ih (fun x hx => hm x (List.mem_append_left _ hx)) h1
    simp only [loop] at h
    cases hst : jroundStep td st acc1 p with
    | error e => rw [hst] at h; cases h
    | ok acc2 =>
      rw [hst] at h
      cases h
      obtain ⟨s0, q0, hf, hset⟩ := jroundStep_meets (hm p (by simp)) hst
      rw [hset, Dict.get?_set]
      by_cases hs : s = s0
      · subst hs
        rw [if_pos rfl]
        have hold : q ∈ (Dict.get? acc1.1 s).getD [] ↔ ∃ l, Dict.get? acc1.1 s = some l ∧ q ∈ l := by
          cases Dict.get? acc1.1 s with
          | none => simp
          | some l => simp
        constructor
        · rintro ⟨l, hl, hq⟩
          cases hl
          rcases List.mem_append.1 hq with hq | hq
          · obtain ⟨p', hp', hf'⟩ := ih.1 (hold.1 hq)
            exact ⟨p', List.mem_append_left _ hp', hf'⟩
          · simp only [List.mem_singleton] at hq
            exact ⟨p, by simp, (hf s q).2 ⟨rfl, hq⟩⟩
        · rintro ⟨p', hp', hf'⟩
          refine ⟨_, rfl, ?_⟩
          rcases List.mem_append.1 hp' with hp' | hp'
          · exact List.mem_append_left _ (hold.2 (ih.2 ⟨p', hp', hf'⟩))
          · simp only [List.mem_singleton] at hp'
            subst hp'
            rw [((hf s q).1 hf').2]; simp
      · rw [if_neg hs, ih]
        constructor
        · rintro ⟨p', hp', hf'⟩
          exact ⟨p', List.mem_append_left _ hp', hf'⟩
        · rintro ⟨p', hp', hf'⟩
          rcases List.mem_append.1 hp' with hp' | hp'
          · exact ⟨p', hp', hf'⟩
          · simp only [List.mem_singleton] at hp'
            subst hp'
            exact absurd ((hf s q).1 hf').1 hs

/-- C31, what is computed if all pairs meet: of two trains that meet at both ends only the order
with the train `10 n + 9` first is listed. -/
theorem C31_computed (td : Trains) (st : Stations) (hd : DisjointStations st)
    (hm : ∀ n ∈ Dict.keys td, 10 * n + 9 ∈ Dict.keys td →
      ∃ b, Meets td n (10 * n + 9) b ∨ Meets td (10 * n + 9) n b)
    (d : Dict String (List (Int × Int))) (h : getJround td st = .ok d) (s : String) (x y : Int) :
    (∃ l, Dict.get? d s = some l ∧ (x, y) ∈ l) ↔
      x ∈ Dict.keys td ∧ y ∈ Dict.keys td ∧ (∃ b, Meets td x y b ∧ BelongsTo st b s) ∧
      (x = 10 * y + 9 ∨ (y = 10 * x + 9 ∧ ∀ b, ¬ Meets td y x b)) := by
  unfold getJround at h
  obtain ⟨acc, hl, h⟩ := bind_ok h
  cases h
  have hm' : ∀ p ∈ getTrainsPair9 td, ∃ b, Meets td p.1 p.2 b ∨ Meets td p.2 p.1 b := by
    rintro ⟨n, m⟩ hp
    obtain ⟨h1, h2, h3⟩ := mem_pair9.1 hp
    simp only at h1 h2 h3
    subst h3
    exact hm n h1 h2
  rw [round_loop hm' hl]
  constructor
  · rintro ⟨⟨n, m⟩, hp, b, hb, ⟨hmt, hq⟩ | ⟨hmt, hn, hq⟩⟩
    · obtain ⟨h1, h2, h3⟩ := mem_pair9.1 hp
      cases hq
      exact ⟨h2, h1, ⟨b, hmt, (getBlockStation_iff hd).1 hb⟩, .inl h3⟩
    · obtain ⟨h1, h2, h3⟩ := mem_pair9.1 hp
      cases hq
      exact ⟨h1, h2, ⟨b, hmt, (getBlockStation_iff hd).1 hb⟩, .inr ⟨h3, hn⟩⟩
  · rintro ⟨h1, h2, ⟨b, hmt, hb⟩, h3 | ⟨h3, hn⟩⟩
    · exact ⟨(y, x), mem_pair9.2 ⟨h2, h1, h3⟩, b, (getBlockStation_iff hd).2 hb, .inl ⟨hmt, rfl⟩⟩
    · exact ⟨(x, y), mem_pair9.2 ⟨h1, h2, h3⟩, b, (getBlockStation_iff hd).2 hb,
        .inr ⟨hmt, hn, rfl⟩⟩

/-- C31 if every pair meets at exactly one end. Missing: the other data, for which it is false. -/
theorem C31_round_partial (td : Trains) (st : Stations) (hd : DisjointStations st)
    (hm : ∀ n ∈ Dict.keys td, 10 * n + 9 ∈ Dict.keys td →
      (∃ b, Meets td n (10 * n + 9) b) ∧ (∀ b, ¬ Meets td (10 * n + 9) n b) ∨
      (∃ b, Meets td (10 * n + 9) n b) ∧ (∀ b, ¬ Meets td n (10 * n + 9) b)) :
    C31_statement td st := by
  constructor
  · intro d h s x y
    rw [C31_computed td st hd (fun n h1 h2 => by
      rcases hm n h1 h2 with ⟨⟨b, hb⟩, _⟩ | ⟨⟨b, hb⟩, _⟩
      · exact ⟨b, .inl hb⟩
      · exact ⟨b, .inr hb⟩) d h]
    constructor
    · rintro ⟨h1, h2, h3, h4 | ⟨h4, _⟩⟩
      · exact ⟨⟨h1, h2, .inr h4⟩, h3⟩
      · exact ⟨⟨h1, h2, .inl h4⟩, h3⟩
    · rintro ⟨⟨h1, h2, h4 | h4⟩, h3⟩
      · refine ⟨h1, h2, h3, .inr ⟨h4, ?_⟩⟩
        subst h4
        rcases hm x h1 h2 with ⟨_, hn⟩ | ⟨_, hn⟩
        · exact hn
        · obtain ⟨b, hb, _⟩ := h3
          exact absurd hb (hn b)
      · exact ⟨h1, h2, h3, .inl h4⟩
  · rintro ⟨x, y, ⟨h1, h2, h | h⟩, hn⟩
    · subst h
      rcases hm x h1 h2 with ⟨⟨b, hb⟩, _⟩ | ⟨⟨b, hb⟩, _⟩
      · exact absurd hb (hn b).1
      · exact absurd hb (hn b).2
    · subst h
      rcases hm y h2 h1 with ⟨⟨b, hb⟩, _⟩ | ⟨⟨b, hb⟩, _⟩
      · exact absurd hb (hn b).2
      · exact absurd hb (hn b).1

theorem loop_succeeds {α σ : Type} {xs : List α} {f : σ → α → Py σ}
    (h : ∀ s, ∀ x ∈ xs, ∃ s', f s x = .ok s') (s : σ) : ∃ s', loop xs f s = .ok s' := by
  induction xs generalizing s with
  | nil => exact ⟨s, rfl⟩
  | cons x xs ih =>
    obtain ⟨s1, h1⟩ := h s x List.mem_cons_self
    simp only [loop, h1]
    exact ih (fun s y hy => h s y (List.mem_cons_of_mem _ hy)) s1

/-- C31: the pairs are found if all pairs meet in a block of a station. -/
theorem C31_found (td : Trains) (st : Stations) (hd : DisjointStations st)
    (hne : ∀ e ∈ td, e.2.2 ≠ [])
    (hm : ∀ n ∈ Dict.keys td, 10 * n + 9 ∈ Dict.keys td →
      ∃ b s, BelongsTo st b s ∧
        (Meets td (10 * n + 9) n b ∨ (Meets td n (10 * n + 9) b ∧ ∀ b', ¬ Meets td (10 * n + 9) n b'))) :
    ∃ d, getJround td st = .ok d := by
  unfold getJround
  suffices h : ∃ acc, loop (getTrainsPair9 td) (jroundStep td st) ([], none) = .ok acc by
    obtain ⟨acc, h⟩ := h
    exact ⟨acc.1, by rw [h]; rfl⟩
  refine loop_succeeds ?_ _
  rintro acc ⟨n, m⟩ hp
  obtain ⟨h1, h2, h3⟩ := mem_pair9.1 hp
  simp only at h1 h2 h3
  have htab : ∀ t ∈ Dict.keys td, ∃ p f l, pathOf td t = .ok p ∧ nth p 0 = .ok f ∧ last p = .ok l := by
    intro t ht
    have hsome := (Dict.get?_isSome td t).2 ht
    obtain ⟨e, he⟩ := Option.isSome_iff_exists.1 hsome
    have hin := hne _ (Dict.mem_of_get? he)
    obtain ⟨r, tt, hc⟩ := List.exists_cons_of_ne_nil hin
    refine ⟨e.2.map (·.path), r.path, ((r :: tt).getLast (by simp)).path,
      pathOf_iff.2 ⟨e.2, ⟨e.1, he⟩, rfl⟩, ?_, ?_⟩
    · rw [nth_zero_iff, List.head?_map]
      simp only at hc
      rw [hc]; rfl
    · rw [last_iff, List.getLast?_map]
      simp only at hc
      rw [hc, List.getLast?_eq_getLast_of_ne_nil (by simp)]; rfl
  obtain ⟨p0, f0, l0, hp0, hf0, hl0⟩ := htab n h1
  obtain ⟨p1, f1, l1, hp1, hf1, hl1⟩ := htab m h2
  have m10 : ∀ b, Meets td m n b ↔ b = l1 ∧ b = f0 := by
    intro b
    unfold Meets
    rw [firstBlock_iff hp0, lastBlock_iff hp1, hf0, hl1]
    simp only [Except.ok.injEq, eq_comm]
  have m01 : ∀ b, Meets td n m b ↔ b = l0 ∧ b = f1 := by
    intro b
    unfold Meets
    rw [firstBlock_iff hp1, lastBlock_iff hp0, hf1, hl0]
    simp only [Except.ok.injEq, eq_comm]
  unfold jroundStep
  simp only [hp0, hp1, hf0, hl1, hf1, hl0, bind, Except.bind]
  obtain ⟨b, s, hb, hcase⟩ := hm n h1 (by rw [← h3]; exact h2)
  rw [← h3] at hcase
  have hst : nth ((st.filter fun e => decide (b ∈ e.2)).map Prod.fst) 0 = .ok s := by
    rw [nth_zero_iff]; exact (getBlockStation_iff hd).2 hb
  rcases hcase with hc | ⟨hc, hn⟩
  · obtain ⟨e1, e2⟩ := (m10 b).1 hc
    subst e2
    rw [if_pos e1]
    simp only [hst]
    exact ⟨_, rfl⟩
  · obtain ⟨e1, e2⟩ := (m01 b).1 hc
    subst e2
    rw [if_neg (fun h => hn f0 ((m10 f0).2 ⟨h, rfl⟩)), if_pos e1]
    simp only [hst]
    exact ⟨_, rfl⟩

/-- trains 4 and 49 meet in `A`; 49 runs first -/
def roundTrains : Trains :=
  [(4, ([], [{ path := "a", station := some "A" }, { path := "l1" },
     { path := "b", station := some "B" }])),
   (49, ([], [{ path := "x" }, { path := "a", station := some "A" }])),
   (5, ([], [{ path := "y" }, { path := "b", station := some "B" }])),
   (59, ([], [{ path := "b", station := some "B" }, { path := "x" }]))]

theorem meets_check {td : Trains} {x y : Int} {p q : List String} (hx : pathOf td x = .ok p)
    (hy : pathOf td y = .ok q) {b : String} :
    Meets td x y b ↔ last p = .ok b ∧ nth q 0 = .ok b := by
  unfold Meets
  rw [firstBlock_iff hy, lastBlock_iff hx]

/-- the hypotheses of `C31_round_partial` and what is computed -/
example : DisjointStations lineStations ∧
    (∀ n ∈ Dict.keys roundTrains, 10 * n + 9 ∈ Dict.keys roundTrains →
      (∃ b, Meets roundTrains n (10 * n + 9) b) ∧ (∀ b, ¬ Meets roundTrains (10 * n + 9) n b) ∨
      (∃ b, Meets roundTrains (10 * n + 9) n b) ∧ (∀ b, ¬ Meets roundTrains n (10 * n + 9) b)) ∧
    getJround roundTrains lineStations = .ok [("A", [(49, 4)]), ("B", [(5, 59)])] := by
  refine ⟨lineStations_disjoint, ?_, by decide +kernel⟩
  intro n hn h9
  have p4 : pathOf roundTrains 4 = .ok ["a", "l1", "b"] := by decide +kernel
  have p49 : pathOf roundTrains 49 = .ok ["x", "a"] := by decide +kernel
  have p5 : pathOf roundTrains 5 = .ok ["y", "b"] := by decide +kernel
  have p59 : pathOf roundTrains 59 = .ok ["b", "x"] := by decide +kernel
  simp only [Dict.keys, roundTrains, List.map_cons, List.map_nil, List.mem_cons, List.not_mem_nil,
    or_false] at hn h9
  rcases hn with rfl | rfl | rfl | rfl
  · right
    exact ⟨⟨"a", (meets_check p49 p4).2 (by decide)⟩, fun b h => by
      have := (meets_check p4 p49).1 h
      simp [last, nth] at this
      rw [← this.1] at this; simp at this⟩
  · omega
  · left
    exact ⟨⟨"b", (meets_check p5 p59).2 (by decide)⟩, fun b h => by
      have := (meets_check p59 p5).1 h
      simp [last, nth] at this
      rw [← this.1] at this; simp at this⟩
  · omega

/-- C31 is false of the code: trains 5 and 59 do not meet, but are not rejected (`sys.exit` is not
called); they are listed under the station found for the pair before. -/
theorem C31_false : ∃ td : Trains, ¬ C31_statement td lineStations ∧
    getJround td lineStations = .ok [("A", [(49, 4), (5, 59)])] := by
  refine ⟨[(4, ([], [{ path := "a", station := some "A" }, { path := "l1" }])),
   (49, ([], [{ path := "x" }, { path := "a", station := some "A" }])),
   (5, ([], [{ path := "y" }, { path := "b", station := some "B" }])),
   (59, ([], [{ path := "z" }, { path := "x" }]))], ?_, by decide +kernel⟩
  rintro ⟨_, h⟩
  obtain ⟨e, he⟩ := h ⟨5, 59, ⟨by decide, by decide, by decide⟩, fun b => ⟨fun hm => by
      have := (meets_check (p := ["y", "b"]) (q := ["z", "x"]) (by decide +kernel)
        (by decide +kernel)).1 hm
      simp [last, nth] at this
      rw [← this.1] at this; simp at this, fun hm => by
      have := (meets_check (p := ["z", "x"]) (q := ["y", "b"]) (by decide +kernel)
        (by decide +kernel)).1 hm
      simp [last, nth] at this
      rw [← this.1] at this; simp at this⟩⟩
  rw [show getJround _ lineStations = .ok [("A", [(49, 4), (5, 59)])] by decide +kernel] at he
  cases he

/-- C31 is false in another way: if the two trains meet at both ends, only one order is listed. -/
theorem C31_both : ∃ td : Trains, ¬ C31_statement td lineStations ∧
    getJround td lineStations = .ok [("A", [(49, 4)])] := by
  have hr : getJround [(4, ([], [{ path := "a", station := some "A" },
      { path := "b", station := some "B" }])),
      (49, ([], [{ path := "b", station := some "B" }, { path := "a", station := some "A" }]))]
      lineStations = .ok [("A", [(49, 4)])] := by decide +kernel
  refine ⟨_, ?_, hr⟩
  rintro ⟨h, _⟩
  obtain ⟨l, hl, _⟩ := (h _ hr "B" 4 49).2 ⟨⟨by decide, by decide, by decide⟩, "b",
    (meets_check (p := ["a", "b"]) (q := ["b", "a"]) (by decide +kernel)
        (by decide +kernel)).2 (by decide), ["b"], by simp [lineStations], by simp⟩
  simp [Dict.get?] at hl

/-- If the first pair does not meet, an exception is raised (the variable `block` has no value). -/
theorem C31_first_rejected (td : Trains) (st : Stations) (p : Int × Int) (ps : List (Int × Int))
    (hp : getTrainsPair9 td = p :: ps) (hn : ∀ b, ¬ Meets td p.1 p.2 b ∧ ¬ Meets td p.2 p.1 b) :
    ∃ e, getJround td st = .error e := by
  cases hr : getJround td st with
  | error e => exact ⟨e, rfl⟩
  | ok d =>
    exfalso
    unfold getJround at hr
    obtain ⟨acc, hl, _⟩ := bind_ok hr
    rw [hp] at hl
    simp only [loop] at hl
    cases hst : jroundStep td st ([], none) p with
    | error e => rw [hst] at hl; cases hl
    | ok acc1 =>
      unfold jroundStep at hst
      obtain ⟨p0, hp0, hst⟩ := bind_ok hst
      obtain ⟨p1, hp1, hst⟩ := bind_ok hst
      obtain ⟨f0, hf0, hst⟩ := bind_ok hst
      obtain ⟨l1, hl1, hst⟩ := bind_ok hst
      obtain ⟨f1, hf1, hst⟩ := bind_ok hst
      obtain ⟨l0, hl0, hst⟩ := bind_ok hst
      have n10 : f0 ≠ l1 := by
        rintro rfl
        exact (hn f0).2 ((meets_check hp1 hp0).2 ⟨hl1, hf0⟩)
      have n01 : f1 ≠ l0 := by
        rintro rfl
        exact (hn f1).1 ((meets_check hp0 hp1).2 ⟨hl0, hf1⟩)
      simp only at hst
      rw [if_neg n10, if_neg n01] at hst
      cases hst

end Verif
