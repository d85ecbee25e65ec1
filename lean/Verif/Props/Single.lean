import Verif.Props.Following

/-!
# C30: trains in opposite directions on a line
-/

namespace Verif

/-- one pair put into the dictionary of `josingle` -/
def pushPair (d : Dict (String × String) (List (Int × Int)))
    (e : (String × String) × (Int × Int)) : Dict (String × String) (List (Int × Int)) :=
  if Dict.has d (e.1.2, e.1.1) = false then Dict.set d e.1 ((Dict.get? d e.1).getD [] ++ [e.2])
  else d

/-- the condition on a second train in `josingle` -/
def singleOk (td : Trains) (s s' : String) (j j' : Int) : Prop :=
  j' ≠ j ∧ nextOf td s' j' = some s ∧ (betweenOf td s s' j).length ≠ 0 ∧
    betweenOf td s s' j = (betweenOf td s' s j').reverse

instance (td : Trains) (s s' : String) (j j' : Int) : Decidable (singleOk td s s' j j') := by
  unfold singleOk; infer_instance

/-- the pairs found when `josingle` deals with the station `s` -/
def singlePairs (td : Trains) (ch : List String) (s : String) (js : List Int) :
    List ((String × String) × (Int × Int)) :=
  js.flatMap fun j =>
    match nextOf td s j with
    | .none => []
    | some s' => if s' ∈ ch then js.flatMap fun j' =>
        if singleOk td s s' j j' then [((s, s'), (j, j'))] else []
      else []

theorem loop_foldl {S A B : Type} {l : List A} {f : S → A → Py S} {p : S → B → S} {g : A → List B}
    (h : ∀ d, ∀ x ∈ l, f d x = .ok ((g x).foldl p d)) (d : S) :
    loop l f d = .ok ((l.flatMap g).foldl p d) := by
  induction l generalizing d with
  | nil => rfl
  | cons x l ih =>
    simp only [loop, h d x List.mem_cons_self]
    rw [ih fun d y hy => h d y (List.mem_cons_of_mem _ hy)]
    rw [List.flatMap_cons, List.foldl_append]

theorem josingleInner_eq {td : Trains} {j : Int} (hj : ∃ e, Dict.get? td j = some e) {j' : Int}
    (hj' : ∃ e, Dict.get? td j' = some e) (s s' : String)
    (d : Dict (String × String) (List (Int × Int))) :
    josingleInner td s s' j d j' =
      .ok ((if singleOk td s s' j j' then [((s, s'), (j, j'))] else []).foldl pushPair d) := by
  obtain ⟨e, he⟩ := hj
  obtain ⟨e', he'⟩ := hj'
  unfold josingleInner
  by_cases hne : j' ≠ j
  · rw [if_pos hne]
    rw [show Dict.at! td j' = .ok e' from Dict.at!_ok.2 he']
    simp only [bind, Except.bind]
    have hn : nextOf td s' j' = nextStation e'.2 s' := by simp [nextOf, he']
    by_cases hnx : nextStation e'.2 s' = some s
    · rw [if_pos hnx]
      have hb : betweenOf td s s' j = (blocksBetween e.2 s s').1 := by simp [betweenOf, he]
      have hb' : betweenOf td s' s j' = (blocksBetween e'.2 s' s).1 := by simp [betweenOf, he']
      have hok : singleOk td s s' j j' ↔ (blocksBetween e.2 s s').1.length ≠ 0 ∧
          (blocksBetween e.2 s s').1 = (blocksBetween e'.2 s' s).1.reverse := by
        unfold singleOk
        rw [hn, hb, hb']
        exact ⟨fun h => h.2.2, fun h => ⟨hne, hnx, h⟩⟩
      unfold josingleDictGenerate
      rw [show Dict.at! td j = .ok e from Dict.at!_ok.2 he,
        show Dict.at! td j' = .ok e' from Dict.at!_ok.2 he']
      simp only [bind, Except.bind]
      by_cases hc : singleOk td s s' j j'
      · rw [if_pos hc, if_pos (hok.1 hc)]
        simp only [List.foldl_cons, List.foldl_nil, pushPair]
        split <;> rfl
      · rw [if_neg hc, if_neg (fun h => hc (hok.2 h))]
        simp
    · rw [if_neg hnx, if_neg]
      · rfl
      · rintro ⟨_, h, _⟩
        rw [hn] at h; exact hnx h
  · rw [if_neg hne, if_neg]
    · rfl
    · exact fun h => hne h.1

theorem josingle_eq {td : Trains} {st : Stations} (hkt : (Dict.keys td).Nodup)
    (hks : (Dict.keys st).Nodup) {imp : Option (List String)}
    (himp : ∀ s ∈ chosen st imp, s ∈ Dict.keys st) :
    josingle td st imp = .ok (((chosen st imp).flatMap fun s =>
      singlePairs td (chosen st imp) s
        (trainsAt td true ((Dict.get? st s).getD []))).foldl pushPair []) := by
  unfold josingle
  simp only
  rw [important_fst]
  have e : (importantTrainsAndStations td st imp true).2 =
    getTrainsAtStation td st true := by cases imp <;> rfl
  rw [e]
  refine loop_foldl (fun d s hs => ?_) []
  obtain ⟨⟨s0, bs⟩, hm, rfl⟩ := List.mem_map.1 (himp s hs)
  simp only
  rw [show Dict.at! (getTrainsAtStation td st true) s0 = .ok (trainsAt td true bs) from
    Dict.at!_ok.2 (get?_trainsAt hks hm), Dict.get?_of_mem hks hm]
  simp only [bind, Except.bind, Option.getD_some]
  have hval : ∀ j ∈ trainsAt td true bs, ∃ e, Dict.get? td j = some e := by
    intro j hj
    obtain ⟨tt, ⟨info, ht⟩, _⟩ := (mem_trainsAt hkt).1 hj
    exact ⟨_, ht⟩
  unfold singlePairs
  refine loop_foldl (fun d j hj => ?_) d
  obtain ⟨e, he⟩ := hval j hj
  rw [show Dict.at! td j = .ok e from Dict.at!_ok.2 he]
  simp only
  have hn : nextOf td s0 j = nextStation e.2 s0 := by simp [nextOf, he]
  rw [hn]
  cases nextStation e.2 s0 with
  | none => rfl
  | some s' =>
    simp only
    split
    · exact loop_foldl (fun d j' hj' => josingleInner_eq ⟨e, he⟩ (hval j' hj') s0 s' d) d
    · rfl

theorem mem_singlePairs {td : Trains} {ch : List String} {s : String} {js : List Int}
    {k : String × String} {p : Int × Int} :
    (k, p) ∈ singlePairs td ch s js ↔ k.1 = s ∧ k.2 ∈ ch ∧ p.1 ∈ js ∧ p.2 ∈ js ∧
      nextOf td s p.1 = some k.2 ∧ singleOk td s k.2 p.1 p.2 := by
  unfold singlePairs
  rw [List.mem_flatMap]
  constructor
  · rintro ⟨j, hj, h⟩
    split at h
    · cases h
    · rename_i s' hs'
      split at h
      · rename_i hch
        obtain ⟨j', hj', h⟩ := List.mem_flatMap.1 h
        split at h
        · rename_i hok
          simp only [List.mem_singleton, Prod.mk.injEq] at h
          obtain ⟨rfl, rfl⟩ := h
          exact ⟨rfl, hch, hj, hj', hs', hok⟩
        · cases h
      · cases h
  · rintro ⟨h1, h2, h3, h4, h5, h6⟩
    refine ⟨p.1, h3, ?_⟩
    rw [h5]
    simp only
    rw [if_pos h2, List.mem_flatMap]
    refine ⟨p.2, h4, ?_⟩
    rw [if_pos h6, List.mem_singleton]
    rw [← h1]

/-- pairs under a key -/
def listed (d : Dict (String × String) (List (Int × Int))) (k : String × String) :
    List (Int × Int) := (Dict.get? d k).getD []

theorem listed_set (d : Dict (String × String) (List (Int × Int))) (k k' : String × String)
    (v : List (Int × Int)) : listed (Dict.set d k v) k' = if k' = k then v else listed d k' := by
  unfold listed
  rw [Dict.get?_set]
  split <;> rfl

theorem has_set (d : Dict (String × String) (List (Int × Int))) (k k' : String × String)
    (v : List (Int × Int)) :
    Dict.has (Dict.set d k v) k' = true ↔ k' = k ∨ Dict.has d k' = true := by
  unfold Dict.has
  rw [Dict.get?_set]
  split
  · rename_i h; simp [h]
  · rename_i h; simp [h]

/-- putting in the pairs of one station -/
theorem push_station {s : String} {es : List ((String × String) × (Int × Int))}
    (hes : ∀ e ∈ es, e.1.1 = s ∧ e.1.2 ≠ s) (d : Dict (String × String) (List (Int × Int))) :
    (∀ k, Dict.has (es.foldl pushPair d) k = true ↔ Dict.has d k = true ∨
      (k.1 = s ∧ Dict.has d (k.2, s) = false ∧ ∃ p, (k, p) ∈ es)) ∧
    (∀ k p, p ∈ listed (es.foldl pushPair d) k ↔ p ∈ listed d k ∨
      (k.1 = s ∧ Dict.has d (k.2, s) = false ∧ (k, p) ∈ es)) := by
  induction es generalizing d with
  | nil => simp
  | cons e es ih =>
    obtain ⟨he1, he2⟩ := hes e List.mem_cons_self
    rw [List.foldl_cons]
    obtain ⟨ih1, ih2⟩ := ih (fun x hx => hes x (List.mem_cons_of_mem _ hx)) (pushPair d e)
    -- the keys asked for in the condition do not change
    have hsame : ∀ b, b ≠ s → Dict.has (pushPair d e) (b, s) = Dict.has d (b, s) := by
      intro b hb
      unfold pushPair
      split
      · rw [Bool.eq_iff_iff, has_set]
        constructor
        · rintro (h | h)
          · rw [← h] at he1; exact absurd he1 hb
          · exact h
        · exact .inr
      · rfl
    have hcond : ∀ k : String × String, ∀ p, (k, p) ∈ es →
        Dict.has (pushPair d e) (k.2, s) = Dict.has d (k.2, s) := by
      intro k p hk
      exact hsame _ (hes _ (List.mem_cons_of_mem _ hk)).2
    have hpush1 : ∀ k, Dict.has (pushPair d e) k = true ↔ Dict.has d k = true ∨
        (k = e.1 ∧ Dict.has d (k.2, s) = false) := by
      intro k
      unfold pushPair
      split
      · rename_i h
        rw [has_set]
        constructor
        · rintro (rfl | h')
          · exact .inr ⟨rfl, by rw [← he1]; exact h⟩
          · exact .inl h'
        · rintro (h' | ⟨h', _⟩)
          · exact .inr h'
          · exact .inl h'
      · rename_i h
        constructor
        · exact .inl
        · rintro (h' | ⟨rfl, h'⟩)
          · exact h'
          · rw [← he1] at h'; exact absurd h' h
    have hpush2 : ∀ k p, p ∈ listed (pushPair d e) k ↔ p ∈ listed d k ∨
        ((k, p) = e ∧ Dict.has d (k.2, s) = false) := by
      intro k p
      unfold pushPair
      split
      · rename_i h
        rw [listed_set]
        split
        · rename_i hk
          subst hk
          change p ∈ listed d e.1 ++ [e.2] ↔ _
          rw [List.mem_append, List.mem_singleton]
          constructor
          · rintro (h' | rfl)
            · exact .inl h'
            · exact .inr ⟨rfl, by rw [← he1]; exact h⟩
          · rintro (h' | ⟨h', _⟩)
            · exact .inl h'
            · exact .inr (by rw [← h'])
        · rename_i hk
          constructor
          · exact .inl
          · rintro (h' | ⟨h', _⟩)
            · exact h'
            · exact absurd (by rw [← h']) hk
      · rename_i h
        constructor
        · exact .inl
        · rintro (h' | ⟨rfl, h'⟩)
          · exact h'
          · rw [← he1] at h'; exact absurd h' h
    constructor
    · intro k
      rw [ih1, hpush1]
      constructor
      · rintro ((h | ⟨rfl, h⟩) | ⟨h1, h2, p, hp⟩)
        · exact .inl h
        · exact .inr ⟨he1, h, e.2, List.mem_cons_self⟩
        · exact .inr ⟨h1, by rw [← hcond k p hp]; exact h2, p, List.mem_cons_of_mem _ hp⟩
      · rintro (h | ⟨h1, h2, p, hp⟩)
        · exact .inl (.inl h)
        · rcases List.mem_cons.1 hp with rfl | hp
          · exact .inl (.inr ⟨rfl, h2⟩)
          · exact .inr ⟨h1, by rw [hcond k p hp]; exact h2, p, hp⟩
    · intro k p
      rw [ih2, hpush2]
      constructor
      · rintro ((h | ⟨rfl, h⟩) | ⟨h1, h2, hp⟩)
        · exact .inl h
        · exact .inr ⟨he1, h, List.mem_cons_self⟩
        · exact .inr ⟨h1, by rw [← hcond k p hp]; exact h2, List.mem_cons_of_mem _ hp⟩
      · rintro (h | ⟨h1, h2, hp⟩)
        · exact .inl (.inl h)
        · rcases List.mem_cons.1 hp with rfl | hp
          · exact .inl (.inr ⟨rfl, h2⟩)
          · exact .inr ⟨h1, by rw [hcond k p hp]; exact h2, hp⟩

/-- `b` stands before `a` in the list -/
def Before (l : List String) (b a : String) : Prop := ∃ l1 l2 l3, l = l1 ++ b :: l2 ++ a :: l3

theorem before_append {l : List String} {s : String} (hs : s ∉ l) {a b : String} :
    Before (l ++ [s]) b a ↔ Before l b a ∨ (b ∈ l ∧ a = s) := by
  constructor
  · rintro ⟨l1, l2, l3, h⟩
    rcases List.eq_nil_or_concat l3 with rfl | ⟨l3', x, rfl⟩
    · have := List.append_inj' h rfl
      right
      refine ⟨?_, ?_⟩
      · rw [this.1]; simp
      · simpa using this.2.symm
    · left
      rw [List.concat_eq_append] at h
      refine ⟨l1, l2, l3', ?_⟩
      have h' : l ++ [s] = (l1 ++ b :: l2 ++ a :: l3') ++ [x] := by rw [h]; simp
      exact (List.append_inj' h' rfl).1
  · rintro (⟨l1, l2, l3, rfl⟩ | ⟨hb, rfl⟩)
    · exact ⟨l1, l2, l3 ++ [s], by simp⟩
    · obtain ⟨l1, l2, rfl⟩ := List.append_of_mem hb
      exact ⟨l1, l2, [], by simp⟩

theorem push_all {E : String → List ((String × String) × (Int × Int))}
    (hE : ∀ s, ∀ e ∈ E s, e.1.1 = s ∧ e.1.2 ≠ s) {l : List String} (hnd : l.Nodup) :
    (∀ a b, Dict.has ((l.flatMap E).foldl pushPair []) (a, b) = true ↔
      a ∈ l ∧ (∃ p, ((a, b), p) ∈ E a) ∧ ¬ (Before l b a ∧ ∃ q, ((b, a), q) ∈ E b)) ∧
    (∀ a b p, p ∈ listed ((l.flatMap E).foldl pushPair []) (a, b) ↔
      a ∈ l ∧ ((a, b), p) ∈ E a ∧ ¬ (Before l b a ∧ ∃ q, ((b, a), q) ∈ E b)) := by
  induction l using List.reverseRecOn with
  | nil => simp [Dict.has, Dict.get?, listed]
  | append_singleton l s ih =>
    rw [List.nodup_append] at hnd
    have hs : s ∉ l := fun h => hnd.2.2 s h s (by simp) rfl
    obtain ⟨ih1, ih2⟩ := ih hnd.1
    rw [List.flatMap_append, List.foldl_append, List.flatMap_cons, List.flatMap_nil,
      List.append_nil]
    obtain ⟨h1, h2⟩ := push_station (hE s) ((l.flatMap E).foldl pushPair [])
    -- what was there when the station was dealt with
    have hcond : ∀ b, b ≠ s → (Dict.has ((l.flatMap E).foldl pushPair []) (b, s) = false ↔
        ¬ (b ∈ l ∧ ∃ q, ((b, s), q) ∈ E b)) := by
      intro b hb
      rw [← Bool.not_eq_true, ih1]
      refine not_congr ⟨fun h => ⟨h.1, h.2.1⟩, fun h => ⟨h.1, h.2, ?_⟩⟩
      rintro ⟨⟨l1, l2, l3, hl⟩, _⟩
      exact hs (by rw [hl]; simp)
    have hin : ∀ a b, a ∈ l → (Before (l ++ [s]) b a ↔ Before l b a) := by
      intro a b ha
      rw [before_append hs]
      constructor
      · rintro (h | ⟨_, rfl⟩)
        · exact h
        · exact absurd ha hs
      · exact .inl
    have hlast : ∀ b, Before (l ++ [s]) b s ↔ b ∈ l := by
      intro b
      rw [before_append hs]
      constructor
      · rintro (⟨l1, l2, l3, hl⟩ | ⟨h, _⟩)
        · exact absurd (by rw [hl]; simp) hs
        · exact h
      · exact fun h => .inr ⟨h, rfl⟩
    constructor
    · intro a b
      rw [h1, ih1]
      constructor
      · rintro (⟨x1, x2, x3⟩ | ⟨rfl, x2, p, hp⟩)
        · exact ⟨List.mem_append_left _ x1, x2, by rw [hin a b x1]; exact x3⟩
        · refine ⟨by simp, ⟨p, hp⟩, ?_⟩
          have := (hcond b (hE _ _ hp).2).1 x2
          rw [hlast]; exact this
      · rintro ⟨x1, ⟨p, hp⟩, x3⟩
        rcases List.mem_append.1 x1 with x1 | x1
        · left
          rw [hin a b x1] at x3
          exact ⟨x1, ⟨p, hp⟩, x3⟩
        · simp only [List.mem_singleton] at x1
          subst x1
          right
          rw [hlast] at x3
          exact ⟨rfl, (hcond b (hE _ _ hp).2).2 x3, p, hp⟩
    · intro a b p
      rw [h2, ih2]
      constructor
      · rintro (⟨x1, x2, x3⟩ | ⟨rfl, x2, hp⟩)
        · exact ⟨List.mem_append_left _ x1, x2, by rw [hin a b x1]; exact x3⟩
        · refine ⟨by simp, hp, ?_⟩
          have := (hcond b (hE _ _ hp).2).1 x2
          rw [hlast]; exact this
      · rintro ⟨x1, hp, x3⟩
        rcases List.mem_append.1 x1 with x1 | x1
        · left
          rw [hin a b x1] at x3
          exact ⟨x1, hp, x3⟩
        · simp only [List.mem_singleton] at x1
          subst x1
          right
          rw [hlast] at x3
          exact ⟨rfl, (hcond b (hE _ _ hp).2).2 x3, hp⟩

/-! ## The property -/

/-- `j` runs from `s` to `s'` and `j'` from `s'` to `s` over the same blocks, at least one -/
def Opposite (td : Trains) (s s' : String) (j j' : Int) : Prop :=
  ∃ blocks, blocks ≠ [] ∧ Runs td j s s' blocks ∧ Runs td j' s' s blocks.reverse

/-- the last block of the train belongs to the station -/
def EndsIn (td : Trains) (st : Stations) (t : Int) (s : String) : Prop :=
  ∃ tt r, TableOf td t tt ∧ tt.getLast? = some r ∧ BelongsTo st r.path s

theorem Opposite.symm {td : Trains} {s s' : String} {j j' : Int} (h : Opposite td s s' j j') :
    Opposite td s' s j' j := by
  obtain ⟨b, hb, h1, h2⟩ := h
  exact ⟨b.reverse, by simpa using hb, h2, by simpa using h1⟩

theorem consecutive_asymm {tt : List Row} (ho : OnceEach tt) {s s' : String} {m m' : List Row}
    (h : Consecutive tt s s' m) (h' : Consecutive tt s' s m') : False := by
  have key : ∀ {a b : String} {m : List Row}, Consecutive tt a b m →
      (tt.filterMap (·.station)).idxOf b = (tt.filterMap (·.station)).idxOf a + 1 := by
    rintro a b m ⟨pre, r1, r2, post, he, h1, h2, hm⟩
    have hmid : m.filterMap (·.station) = [] := by
      rw [List.filterMap_eq_nil_iff]; exact hm
    have hl : tt.filterMap (·.station) =
        pre.filterMap (·.station) ++ a :: b :: post.filterMap (·.station) := by
      rw [he]; simp [List.filterMap_append, h1, h2, hmid]
    unfold OnceEach at ho
    rw [hl] at ho ⊢
    have hna : a ∉ pre.filterMap (·.station) := by
      intro hin
      exact (List.nodup_append.1 ho).2.2 a hin a (by simp) rfl
    have hnb : b ∉ pre.filterMap (·.station) ++ [a] := by
      intro hin
      have ho' : (pre.filterMap (·.station) ++ [a] ++ b :: post.filterMap (·.station)).Nodup := by
        simpa using ho
      exact (List.nodup_append.1 ho').2.2 b hin b (by simp) rfl
    rw [idx_first hna]
    rw [show pre.filterMap (·.station) ++ a :: b :: post.filterMap (·.station) =
      pre.filterMap (·.station) ++ [a] ++ b :: post.filterMap (·.station) by simp, idx_first hnb]
    simp
  have h1 := key h
  have h2 := key h'
  omega

theorem runs_not_ends {td : Trains} {st : Stations} (htag : Tagged st td)
    (ho : ∀ e ∈ td, OnceEach e.2.2) {t : Int} {s s' : String} {b : List String}
    (h : Runs td t s s' b) : ¬ EndsIn td st t s := by
  rintro ⟨tt, r, ht, hl, hb⟩
  obtain ⟨tt', mid, ht', hc, _⟩ := h
  cases ht.unique ht'
  obtain ⟨info, hm⟩ := ht.mem
  have ho' := ho _ hm
  obtain ⟨pre, r1, r2, post, he, h1, h2, _⟩ := hc
  have hr : r ∈ tt := List.mem_of_getLast? hl
  have hrs : r.station = some s := (htag _ hm r hr s).2 hb
  -- the last row is a later one
  have hlast : r ∈ r2 :: post := by
    rw [he] at hl
    rw [List.getLast?_append] at hl
    cases hg : (r2 :: post).getLast? with
    | none => simp at hg
    | some x =>
      rw [hg] at hl
      cases hl
      exact List.mem_of_getLast? hg
  simp only [OnceEach] at ho'
  rw [he, List.filterMap_append, List.nodup_append] at ho'
  refine ho'.2.2 s ?_ s ?_ rfl
  · rw [List.mem_filterMap]; exact ⟨r1, by simp, h1⟩
  · rw [List.mem_filterMap]; exact ⟨r, hlast, hrs⟩

theorem mem_departing {td : Trains} {st : Stations} (hkt : (Dict.keys td).Nodup)
    (hks : (Dict.keys st).Nodup) {s : String} (hs : s ∈ Dict.keys st) {t : Int} :
    t ∈ trainsAt td true ((Dict.get? st s).getD []) ↔
      (∃ tt, TableOf td t tt ∧ CallsAt st tt s) ∧ ¬ EndsIn td st t s := by
  obtain ⟨⟨s0, bs⟩, hm, rfl⟩ := List.mem_map.1 hs
  rw [Dict.get?_of_mem hks hm]
  simp only [Option.getD_some]
  rw [mem_trainsAt hkt]
  constructor
  · rintro ⟨tt, ht, h⟩
    rw [isAtStation_true] at h
    refine ⟨⟨tt, ht, (calls_iff hks hm tt).2 h.1⟩, ?_⟩
    rintro ⟨tt', r, ht', hl, hb⟩
    cases ht.unique ht'
    exact h.2 r hl ((belongs_iff hks hm).1 hb)
  · rintro ⟨⟨tt, ht, hc⟩, hn⟩
    refine ⟨tt, ht, isAtStation_true.2 ⟨(calls_iff hks hm tt).1 hc, fun r hl hb => ?_⟩⟩
    exact hn ⟨tt, r, ht, hl, (belongs_iff hks hm).2 hb⟩

theorem runs_calls' {td : Trains} {st : Stations} (htag : Tagged st td) {s s' : String} {t : Int}
    {blocks : List String} (h : Runs td t s s' blocks) :
    ∃ tt, TableOf td t tt ∧ CallsAt st tt s' := by
  obtain ⟨tt, mid, ht, hc, _⟩ := h
  obtain ⟨info, hm⟩ := ht.mem
  obtain ⟨r, hr, hrs⟩ := (consecutive_serves hc).2
  exact ⟨tt, ht, r, hr, (htag _ hm r hr s').1 hrs⟩

/-- which pairs are found when a station is dealt with -/
theorem found_from_iff {td : Trains} {st : Stations} (hkt : (Dict.keys td).Nodup)
    (hks : (Dict.keys st).Nodup) (htag : Tagged st td) (ho : ∀ e ∈ td, OnceEach e.2.2)
    {ch : List String} {s s' : String} (hs : s ∈ Dict.keys st) {j j' : Int} :
    ((s, s'), (j, j')) ∈ singlePairs td ch s (trainsAt td true ((Dict.get? st s).getD [])) ↔
      s' ∈ ch ∧ Opposite td s s' j j' ∧ ¬ EndsIn td st j' s := by
  rw [mem_singlePairs]
  constructor
  · rintro ⟨_, hch, hj, hj', hn, hok⟩
    obtain ⟨_, hn', hlen, hrev⟩ := hok
    obtain ⟨b, hb⟩ := (nextOf_iff ho).1 hn
    obtain ⟨b', hb'⟩ := (nextOf_iff ho).1 hn'
    simp only at hlen hrev
    rw [betweenOf_eq ho hb] at hlen hrev
    rw [betweenOf_eq ho hb'] at hrev
    refine ⟨hch, ⟨b, ?_, hb, ?_⟩, ((mem_departing hkt hks hs).1 hj').2⟩
    · rintro rfl; exact hlen rfl
    · rw [hrev, List.reverse_reverse]; exact hb'
  · rintro ⟨hch, ⟨b, hne, hb, hb'⟩, hend⟩
    refine ⟨rfl, hch, ?_, ?_, (nextOf_iff ho).2 ⟨b, hb⟩, ?_, (nextOf_iff ho).2 ⟨_, hb'⟩, ?_, ?_⟩
    · exact (mem_departing hkt hks hs).2 ⟨runs_calls htag hb, runs_not_ends htag ho hb⟩
    · exact (mem_departing hkt hks hs).2 ⟨runs_calls' htag hb', hend⟩
    · rintro h
      simp only at h
      subst h
      obtain ⟨tt, m, ht, hc, _⟩ := hb
      obtain ⟨tt', m', ht', hc', _⟩ := hb'
      cases ht.unique ht'
      obtain ⟨info, hm⟩ := ht.mem
      exact consecutive_asymm (ho _ hm) hc hc'
    · simp only
      rw [betweenOf_eq ho hb]
      intro h; exact hne (List.length_eq_zero_iff.1 h)
    · simp only
      rw [betweenOf_eq ho hb, betweenOf_eq ho hb', List.reverse_reverse]

/-- C30, what is computed: the pair `j`, `j'` is listed under `(s, s')` exactly if they run between
`s` and `s'` in opposite directions over the same blocks, `j'` does not end in `s`, and not `s'` was
dealt with before `s` and a pair was found then. -/
theorem C30_computed (td : Trains) (st : Stations) (hkt : (Dict.keys td).Nodup)
    (hks : (Dict.keys st).Nodup) (htag : Tagged st td) (ho : ∀ e ∈ td, OnceEach e.2.2)
    (imp : Option (List String)) (himp : ∀ s ∈ chosen st imp, s ∈ Dict.keys st)
    (hnd : (chosen st imp).Nodup) :
    ∃ d, josingle td st imp = .ok d ∧ ∀ s s' j j',
      (∃ l, Dict.get? d (s, s') = some l ∧ (j, j') ∈ l) ↔
        s ∈ chosen st imp ∧ s' ∈ chosen st imp ∧ Opposite td s s' j j' ∧ ¬ EndsIn td st j' s ∧
        ¬ (Before (chosen st imp) s' s ∧ ∃ i i', Opposite td s' s i i' ∧ ¬ EndsIn td st i' s') := by
  refine ⟨_, josingle_eq hkt hks himp, ?_⟩
  intro s s' j j'
  have hl : ∀ (d : Dict (String × String) (List (Int × Int))),
      (∃ l, Dict.get? d (s, s') = some l ∧ (j, j') ∈ l) ↔ (j, j') ∈ listed d (s, s') := by
    intro d
    unfold listed
    cases Dict.get? d (s, s') with
    | none => simp
    | some l => simp
  rw [hl]
  have hE : ∀ s, ∀ e ∈ singlePairs td (chosen st imp) s
      (trainsAt td true ((Dict.get? st s).getD [])), e.1.1 = s ∧ e.1.2 ≠ s := by
    rintro s ⟨k, p⟩ he
    obtain ⟨h1, _, _, _, h5, _⟩ := mem_singlePairs.1 he
    refine ⟨h1, ?_⟩
    intro h
    simp only at h
    rw [h] at h5
    obtain ⟨b, tt, m, ht, hc, _⟩ := (nextOf_iff ho).1 h5
    obtain ⟨info, hm⟩ := ht.mem
    exact consecutive_ne (ho _ hm) hc rfl
  rw [(push_all hE hnd).2]
  constructor
  · rintro ⟨hs, hp, hn⟩
    obtain ⟨h1, h2, h3⟩ := (found_from_iff hkt hks htag ho (himp s hs)).1 hp
    refine ⟨hs, h1, h2, h3, ?_⟩
    rintro ⟨hb, i, i', hop, hend⟩
    exact hn ⟨hb, (i, i'), (found_from_iff hkt hks htag ho (himp s' h1)).2 ⟨hs, hop, hend⟩⟩
  · rintro ⟨hs, h1, h2, h3, hn⟩
    refine ⟨hs, (found_from_iff hkt hks htag ho (himp s hs)).2 ⟨h1, h2, h3⟩, ?_⟩
    rintro ⟨hb, ⟨i, i'⟩, hq⟩
    obtain ⟨_, hop, hend⟩ := (found_from_iff hkt hks htag ho (himp s' h1)).1 hq
    exact hn ⟨hb, i, i', hop, hend⟩

/-- C30, full statement for the stations asked for: two trains in opposite directions between
`s` and `s'` are listed in one of the two ways, and nothing else is listed. -/
def C30_statement (td : Trains) (ch : List String) (d : Dict (String × String) (List (Int × Int))) :
    Prop :=
  (∀ s ∈ ch, ∀ s' ∈ ch, ∀ j j', Opposite td s s' j j' →
    (∃ l, Dict.get? d (s, s') = some l ∧ (j, j') ∈ l) ∨
    (∃ l, Dict.get? d (s', s) = some l ∧ (j', j) ∈ l)) ∧
  (∀ s s' l, Dict.get? d (s, s') = some l → ∀ j j', (j, j') ∈ l → Opposite td s s' j j')

/-- Second half of C30. Missing: the first half, which is false. -/
theorem C30_sound_partial (td : Trains) (st : Stations) (hkt : (Dict.keys td).Nodup)
    (hks : (Dict.keys st).Nodup) (htag : Tagged st td) (ho : ∀ e ∈ td, OnceEach e.2.2)
    (imp : Option (List String)) (himp : ∀ s ∈ chosen st imp, s ∈ Dict.keys st)
    (hnd : (chosen st imp).Nodup) (d : Dict (String × String) (List (Int × Int)))
    (h : josingle td st imp = .ok d) (s s' : String) (l : List (Int × Int))
    (hl : Dict.get? d (s, s') = some l) (j j' : Int) (hj : (j, j') ∈ l) :
    Opposite td s s' j j' := by
  obtain ⟨d', hd', hiff⟩ := C30_computed td st hkt hks htag ho imp himp hnd
  rw [h] at hd'; cases hd'
  exact ((hiff s s' j j').1 ⟨l, hl, hj⟩).2.2.1

/-- First half of C30 for two trains of which none ends at the other end of the line. Missing: pairs
in which a train ends there, for which it is false. -/
theorem C30_pair_partial (td : Trains) (st : Stations) (hkt : (Dict.keys td).Nodup)
    (hks : (Dict.keys st).Nodup) (htag : Tagged st td) (ho : ∀ e ∈ td, OnceEach e.2.2)
    (imp : Option (List String)) (himp : ∀ s ∈ chosen st imp, s ∈ Dict.keys st)
    (hnd : (chosen st imp).Nodup) (d : Dict (String × String) (List (Int × Int)))
    (h : josingle td st imp = .ok d) (s s' : String) (hs : s ∈ chosen st imp)
    (hs' : s' ∈ chosen st imp) (j j' : Int) (hop : Opposite td s s' j j')
    (hend : ¬ EndsIn td st j' s) (hend' : ¬ EndsIn td st j s') :
    (∃ l, Dict.get? d (s, s') = some l ∧ (j, j') ∈ l) ∨
    (∃ l, Dict.get? d (s', s) = some l ∧ (j', j) ∈ l) := by
  obtain ⟨d', hd', hiff⟩ := C30_computed td st hkt hks htag ho imp himp hnd
  rw [h] at hd'; cases hd'
  by_cases hb : Before (chosen st imp) s' s
  · right
    rw [hiff]
    refine ⟨hs', hs, hop.symm, hend', ?_⟩
    rintro ⟨⟨l1, l2, l3, e⟩, _⟩
    obtain ⟨m1, m2, m3, e'⟩ := hb
    have hx : (chosen st imp).idxOf s < (chosen st imp).idxOf s' := by
      have hnd' := hnd
      rw [e] at hnd' ⊢
      have h1 : s ∉ l1 := by
        intro hin
        rw [List.append_assoc, List.nodup_append] at hnd'
        exact hnd'.2.2 s hin s (by simp) rfl
      have h2 : s' ∉ l1 ++ s :: l2 := by
        intro hin
        rw [List.nodup_append] at hnd'
        exact hnd'.2.2 s' hin s' (by simp) rfl
      rw [idx_first h2, List.append_assoc, List.cons_append, idx_first h1]
      simp
    have hy : (chosen st imp).idxOf s' < (chosen st imp).idxOf s := by
      have hnd' := hnd
      rw [e'] at hnd' ⊢
      have h1 : s' ∉ m1 := by
        intro hin
        rw [List.append_assoc, List.nodup_append] at hnd'
        exact hnd'.2.2 s' hin s' (by simp) rfl
      have h2 : s ∉ m1 ++ s' :: m2 := by
        intro hin
        rw [List.nodup_append] at hnd'
        exact hnd'.2.2 s hin s (by simp) rfl
      rw [idx_first h2, List.append_assoc, List.cons_append, idx_first h1]
      simp
    omega
  · left
    rw [hiff]
    exact ⟨hs, hs', hop, hend, fun h => hb h.1⟩

/-- C30 if no train that runs from `s'` to `s` against another one ends in `s`. Missing: pairs in
which a train ends there. -/
theorem C30_complete_partial (td : Trains) (st : Stations) (hkt : (Dict.keys td).Nodup)
    (hks : (Dict.keys st).Nodup) (htag : Tagged st td) (ho : ∀ e ∈ td, OnceEach e.2.2)
    (imp : Option (List String)) (himp : ∀ s ∈ chosen st imp, s ∈ Dict.keys st)
    (hnd : (chosen st imp).Nodup)
    (hend : ∀ s s' j j', Opposite td s s' j j' → ¬ EndsIn td st j' s)
    (d : Dict (String × String) (List (Int × Int)))
    (h : josingle td st imp = .ok d) : C30_statement td (chosen st imp) d :=
  ⟨fun s hs s' hs' j j' hop => C30_pair_partial td st hkt hks htag ho imp himp hnd d h s s' hs hs' j
      j' hop (hend _ _ _ _ hop) (hend _ _ _ _ hop.symm),
    fun s s' l hl j j' hj => C30_sound_partial td st hkt hks htag ho imp himp hnd d h s s' l hl j j' hj⟩

/-- two trains in opposite directions that go on after the line -/
def oppositeTrains : Trains :=
  [(1, ([], [{ path := "x" }, { path := "a", station := some "A" }, { path := "l1" }, { path := "l2" },
     { path := "b", station := some "B" }, { path := "y" }])),
   (2, ([], [{ path := "y" }, { path := "b", station := some "B" }, { path := "l2" }, { path := "l1" },
     { path := "a", station := some "A" }, { path := "x" }]))]
/-- two trains in opposite directions that end at the other end of the line -/
def endingTrains : Trains :=
  [(1, ([], [{ path := "a", station := some "A" }, { path := "l1" }, { path := "l2" },
     { path := "b", station := some "B" }])),
   (2, ([], [{ path := "b", station := some "B" }, { path := "l2" }, { path := "l1" },
     { path := "a", station := some "A" }]))]

theorem endsIn_of_check {td : Trains} {st : Stations}
    (h : ∀ e ∈ td, ∀ r, e.2.2.getLast? = some r → ∀ p ∈ st, r.path ∉ p.2) (t : Int) (s : String) :
    ¬ EndsIn td st t s := by
  rintro ⟨tt, r, ht, hl, bs, hm, hb⟩
  obtain ⟨info, hin⟩ := ht.mem
  exact h _ hin r hl _ hm hb

/-- the hypotheses of `C30_complete_partial` and the result -/
example : (Dict.keys oppositeTrains).Nodup ∧ (Dict.keys lineStations).Nodup ∧
    Tagged lineStations oppositeTrains ∧ (∀ e ∈ oppositeTrains, OnceEach e.2.2) ∧
    (∀ t s, ¬ EndsIn oppositeTrains lineStations t s) ∧
    josingle oppositeTrains lineStations none = .ok [(("A", "B"), [(1, 2)])] :=
  ⟨by decide +kernel, by decide +kernel, lineTagged (by decide +kernel),
    by unfold OnceEach; decide +kernel,
    endsIn_of_check (by
      intro e he r hr
      simp only [oppositeTrains, List.mem_cons, List.not_mem_nil, or_false] at he
      rcases he with rfl | rfl <;> (simp at hr; subst hr; decide +kernel)), by decide +kernel⟩

theorem endingTrains_opposite : Opposite endingTrains "A" "B" 1 2 :=
  ⟨["l1", "l2"], by simp,
    ⟨_, [{ path := "l1" }, { path := "l2" }], ⟨_, rfl⟩,
      ⟨[], { path := "a", station := some "A" }, { path := "b", station := some "B" }, [], rfl, rfl,
        rfl, by simp⟩, rfl⟩,
    ⟨_, [{ path := "l2" }, { path := "l1" }], ⟨_, rfl⟩,
      ⟨[], { path := "b", station := some "B" }, { path := "a", station := some "A" }, [], rfl, rfl,
        rfl, by simp⟩, rfl⟩⟩

/-- C30 is false of the code: two trains in opposite directions on the line, each ending at the
other end, are not listed at all. -/
theorem C30_false : ∃ d, josingle endingTrains lineStations none = .ok d ∧
    Tagged lineStations endingTrains ∧ (∀ e ∈ endingTrains, OnceEach e.2.2) ∧
    ¬ C30_statement endingTrains ["A", "B"] d := by
  refine ⟨[], by decide +kernel, lineTagged (by decide +kernel), by unfold OnceEach; decide +kernel, ?_⟩
  rintro ⟨h, _⟩
  rcases h "A" (by simp) "B" (by simp) 1 2 endingTrains_opposite with ⟨l, hl, _⟩ | ⟨l, hl, _⟩ <;>
    simp [Dict.get?] at hl

/-- What is listed depends on the order of the stations: train 3 ends in `B`, so its pair with train
2 is found from `A` only; if `B` comes first, a pair of trains 1 and 2 is found there, and the pairs
found from `A` are left out. -/
theorem C30_order : ∃ td : Trains, Tagged lineStations td ∧ (∀ e ∈ td, OnceEach e.2.2) ∧
    Opposite td "A" "B" 3 2 ∧ ¬ EndsIn td lineStations 2 "A" ∧
    josingle td lineStations (some ["A", "B"]) = .ok [(("A", "B"), [(1, 2), (3, 2)])] ∧
    josingle td lineStations (some ["B", "A"]) = .ok [(("B", "A"), [(2, 1)])] := by
  refine ⟨oppositeTrains ++ [(3, ([], [{ path := "a", station := some "A" }, { path := "l1" },
    { path := "l2" }, { path := "b", station := some "B" }]))], lineTagged (by decide +kernel),
    by unfold OnceEach; decide +kernel, ?_, ?_, by decide +kernel, by decide +kernel⟩
  · exact ⟨["l1", "l2"], by simp,
      ⟨_, [{ path := "l1" }, { path := "l2" }], ⟨_, rfl⟩,
        ⟨[], { path := "a", station := some "A" }, { path := "b", station := some "B" }, [], rfl, rfl,
          rfl, by simp⟩, rfl⟩,
      ⟨_, [{ path := "l2" }, { path := "l1" }], ⟨_, rfl⟩,
        ⟨[{ path := "y" }], { path := "b", station := some "B" },
          { path := "a", station := some "A" }, [{ path := "x" }], rfl, rfl, rfl, by simp⟩, rfl⟩⟩
  · rintro ⟨tt, r, ⟨info, ht⟩, hl, bs, hm, hb⟩
    simp [Dict.get?, oppositeTrains] at ht
    obtain ⟨_, rfl⟩ := ht
    simp at hl
    subst hl
    simp [lineStations] at hm
    rcases hm with ⟨_, rfl⟩
    simp at hb

end Verif
