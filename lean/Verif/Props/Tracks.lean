import Verif.Proofs.AtStation

/-!
# C28: station track groups
-/

namespace Verif

theorem map_set_idx {β γ : Type} [BEq β] [LawfulBEq β] [DecidableEq β] {bl : List β} (hnd : bl.Nodup) {b0 : β}
    (hb : b0 ∈ bl) (f : β → γ) (x : γ) :
    (bl.map f).set (bl.idxOf b0) x = bl.map fun b => if b = b0 then x else f b := by
  induction bl with
  | nil => cases hb
  | cons b bl ih =>
    rw [List.nodup_cons] at hnd
    by_cases h : b = b0
    · subst h
      simp only [List.idxOf_cons_self, List.map_cons, List.set_cons_zero, if_true]
      congr 1
      refine List.map_congr_left fun c hc => ?_
      rw [if_neg (by rintro rfl; exact hnd.1 hc)]
    · rw [List.idxOf_cons_ne _ h]
      simp only [List.map_cons, List.set_cons_succ, if_neg h]
      rw [ih hnd.2 ((List.mem_cons.1 hb).resolve_left (Ne.symm h))]

/-- the loop of `jtrack_subroutine` builds the classes of trains with equal block lists -/
theorem jtrack_groups {td : Trains} {st : Stations} {s : String} {B : Int → List String}
    {js : List Int}
    (hB : ∀ j ∈ js, ∃ e, Dict.at! td j = .ok e ∧ blocksList4station e.2 s st = .ok (B j)) :
    ∃ bl, loop js (jtrackStep td st s) ([], [[]]) =
        .ok (bl, [] :: bl.map fun b => js.filter fun j => decide (B j = b)) ∧ bl.Nodup ∧
      ∀ b, b ∈ bl ↔ b ∉ blockExclusion ∧ ∃ j ∈ js, B j = b := by
  induction js using List.reverseRecOn with
  | nil => exact ⟨[], rfl, List.nodup_nil, by simp⟩
  | append_singleton js j ih =>
    obtain ⟨bl, h1, h2, h3⟩ := ih fun i hi => hB i (List.mem_append_left _ hi)
    obtain ⟨e, he, hb⟩ := hB j (by simp)
    rw [loop_append, h1]
    simp only [bind, Except.bind, loop]
    unfold jtrackStep
    rw [he]
    simp only [bind, Except.bind]
    rw [hb]
    simp only
    by_cases hex : B j ∉ blockExclusion
    · rw [if_pos hex]
      by_cases hin : B j ∈ bl
      · rw [if_pos hin]
        have hlt : bl.idxOf (B j) < bl.length := List.idxOf_lt_length_iff.2 hin
        have hg : nth ([] :: bl.map fun b => js.filter fun j => decide (B j = b))
            (bl.idxOf (B j) + 1) = .ok (js.filter fun i => decide (B i = B j)) := by
          unfold nth
          rw [List.getElem?_cons_succ, List.getElem?_map, List.getElem?_eq_getElem hlt]
          simp
        rw [hg]
        refine ⟨bl, ?_, h2, ?_⟩
        · simp only [List.set_cons_succ]
          rw [map_set_idx h2 hin]
          congr 3
          refine List.map_congr_left fun b _ => ?_
          rw [List.filter_append]
          by_cases hbj : b = B j
          · subst hbj; simp
          · rw [if_neg hbj]; simp [Ne.symm hbj]
        · intro b
          rw [h3]
          constructor
          · rintro ⟨ha, i, hi, rfl⟩
            exact ⟨ha, i, List.mem_append_left _ hi, rfl⟩
          · rintro ⟨ha, i, hi, rfl⟩
            rcases List.mem_append.1 hi with hi | hi
            · exact ⟨ha, i, hi, rfl⟩
            · simp only [List.mem_singleton] at hi; subst hi
              exact (h3 _).1 hin
      · rw [if_neg hin]
        have hfresh : ∀ i ∈ js, B i ≠ B j := fun i hi h =>
          hin ((h3 _).2 ⟨hex, i, hi, h⟩)
        refine ⟨bl ++ [B j], ?_, ?_, ?_⟩
        · simp only
          congr 2
          rw [List.map_append, List.cons_append]
          congr 2
          · refine List.map_congr_left fun b hb => ?_
            rw [List.filter_append]
            have : B j ≠ b := by rintro rfl; exact hin hb
            simp [this]
          · simp only [List.map_cons, List.map_nil, List.filter_append]
            rw [List.filter_eq_nil_iff.2 (by simpa using hfresh)]
            simp
        · rw [List.nodup_append]
          refine ⟨h2, by simp, ?_⟩
          intro a ha b hb
          simp only [List.mem_singleton] at hb; subst hb
          rintro rfl; exact hin ha
        · intro b
          rw [List.mem_append, h3]
          constructor
          · rintro (⟨ha, i, hi, rfl⟩ | h)
            · exact ⟨ha, i, List.mem_append_left _ hi, rfl⟩
            · simp only [List.mem_singleton] at h; subst h
              exact ⟨hex, j, by simp, rfl⟩
          · rintro ⟨ha, i, hi, rfl⟩
            rcases List.mem_append.1 hi with hi | hi
            · exact .inl ⟨ha, i, hi, rfl⟩
            · simp only [List.mem_singleton] at hi; subst hi
              exact .inr (by simp)
    · rw [if_neg hex]
      refine ⟨bl, ?_, h2, ?_⟩
      · simp only
        congr 3
        refine List.map_congr_left fun b hb => ?_
        rw [List.filter_append]
        have : B j ≠ b := by rintro rfl; exact hex ((h3 _).1 hb).1
        simp [this]
      · intro b
        rw [h3]
        constructor
        · rintro ⟨ha, i, hi, rfl⟩
          exact ⟨ha, i, List.mem_append_left _ hi, rfl⟩
        · rintro ⟨ha, i, hi, rfl⟩
          rcases List.mem_append.1 hi with hi | hi
          · exact ⟨ha, i, hi, rfl⟩
          · simp only [List.mem_singleton] at hi; subst hi
            exact absurd ha hex

/-- the station blocks of a train, as a function of the train -/
def blocksOfTrain (td : Trains) (bs : List String) (j : Int) : List String :=
  match Dict.get? td j with
  | some e => stationBlocks bs e.2
  | .none => []

/-- the groups of one station before empty ones are dropped -/
def trackGroups (td : Trains) (st : Stations) (s : String) : Py (List (List Int)) := do
  let js ← Dict.at! (getTrainsAtStation td st false) s
  let r ← loop js (jtrackStep td st s) ([], [[]])
  .ok r.2

theorem trackGroups_ok {td : Trains} {st : Stations} (hkt : (Dict.keys td).Nodup)
    (hks : (Dict.keys st).Nodup) (htag : Tagged st td) {s : String} {bs : List String}
    (hs : (s, bs) ∈ st) : ∃ bl : List (List String), bl.Nodup ∧
      trackGroups td st s = .ok ([] :: bl.map fun b =>
        (trainsAt td false bs).filter fun j => decide (blocksOfTrain td bs j = b)) ∧
      ∀ b, b ∈ bl ↔ b ∉ blockExclusion ∧
        ∃ j ∈ trainsAt td false bs, blocksOfTrain td bs j = b := by
  have hB : ∀ j ∈ trainsAt td false bs, ∃ e, Dict.at! td j = .ok e ∧
      blocksList4station e.2 s st = .ok (blocksOfTrain td bs j) := by
    intro j hj
    obtain ⟨tt, ⟨info, ht⟩, _⟩ := (mem_trainsAt hkt).1 hj
    refine ⟨(info, tt), Dict.at!_ok.2 ht, ?_⟩
    rw [blocksList_eq hks (htag _ (Dict.mem_of_get? ht)) hs]
    simp only [blocksOfTrain, ht]
  obtain ⟨bl, h1, h2, h3⟩ := jtrack_groups hB
  refine ⟨bl, h2, ?_, h3⟩
  unfold trackGroups
  rw [show Dict.at! (getTrainsAtStation td st false) s = .ok (trainsAt td false bs) from
    Dict.at!_ok.2 (get?_trainsAt hks hs)]
  simp only [bind, Except.bind]
  rw [h1]

theorem jtrack_eq {td : Trains} {st : Stations} {imp : Option (List String)}
    {d : Dict String (List (List Int))} (h : jtrack td st imp = .ok d) (s : String) :
    ((s ∉ chosen st imp ∨ s ∈ stationExclusion) → Dict.get? d s = none) ∧
    (s ∈ chosen st imp → s ∉ stationExclusion → ∃ gs, trackGroups td st s = .ok gs ∧
      Dict.get? d s = some (gs.filter fun g => decide (g.length ≠ 0))) := by
  unfold jtrack at h
  simp only at h
  rw [important_fst] at h
  obtain ⟨r, hr, h⟩ := bind_ok h
  cases h
  rw [get?_map_snd r (fun gs => gs.filter fun g => decide (g.length ≠ 0)) s]
  -- the excluded stations do not change the dictionary
  have hfil : ∀ (l : List String) (d0 : Dict String (List (List Int))),
      loop l (fun d s => if s ∈ stationExclusion then .ok d else do
        let js ← Dict.at! (importantTrainsAndStations td st imp false).2 s
        let r ← loop js (jtrackStep td st s) ([], [[]])
        .ok (Dict.set d s r.2)) d0 =
      loop (l.filter fun s => decide (s ∉ stationExclusion)) (fun d s =>
        trackGroups td st s >>= fun v => .ok (Dict.set d s v)) d0 := by
    intro l
    induction l with
    | nil => intro d0; rfl
    | cons x l ih =>
      intro d0
      simp only [loop]
      by_cases hx : x ∈ stationExclusion
      · rw [if_pos hx, List.filter_cons_of_neg (by simpa using hx)]
        exact ih d0
      · rw [if_neg hx, List.filter_cons_of_pos (by simpa using hx)]
        simp only [loop]
        have e : (do
            let js ← Dict.at! (importantTrainsAndStations td st imp false).2 x
            let r ← loop js (jtrackStep td st x) ([], [[]])
            .ok (Dict.set d0 x r.2) : Py (Dict String (List (List Int)))) =
            (trackGroups td st x >>= fun v => .ok (Dict.set d0 x v)) := by
          unfold trackGroups
          have : (importantTrainsAndStations td st imp false).2 =
            getTrainsAtStation td st false := by cases imp <;> rfl
          rw [this]
          cases Dict.at! (getTrainsAtStation td st false) x with
          | error e => rfl
          | ok js =>
            simp only [bind, Except.bind]
            cases loop js (jtrackStep td st x) ([], [[]]) <;> rfl
        rw [e]
        cases trackGroups td st x with
        | error e => rfl
        | ok v => exact ih _
  rw [hfil] at hr
  obtain ⟨h1, h2⟩ := station_loop (fun d s _ => rfl) hr
  constructor
  · intro hs
    rw [h1 s ?_]
    · rfl
    · rw [List.mem_filter]
      rintro ⟨ha, hb⟩
      rcases hs with hs | hs
      · exact hs ha
      · simp [hs] at hb
  · intro hs hx
    obtain ⟨v, hv, hg⟩ := h2 s (List.mem_filter.2 ⟨hs, by simpa using hx⟩)
    exact ⟨v, hv, by rw [hg]; rfl⟩

/-- the trains left out at a station: those whose only station block is one of three given ones -/
def ExcludedTrain (bs : List String) (tt : List Row) : Prop :=
  ∃ x ∈ ["\"KO\", \"ST-M\", 1114, \"(N/A)\"", "\"KO\", \"ST-M\", 1113, \"(N/A)\"",
    "\"KO\", \"ST-M\", 1118, \"(N/A)\""], stationBlocks bs tt = [x]

theorem excluded_iff {bs : List String} {tt : List Row} :
    stationBlocks bs tt ∈ blockExclusion ↔ ExcludedTrain bs tt := by
  unfold blockExclusion ExcludedTrain
  simp

theorem stationBlocks_congr {bs : List String} {tt tt' : List Row} :
    stationBlocks bs tt = stationBlocks bs tt' ↔
      ∀ b ∈ bs, (∃ r ∈ tt, r.path = b) ↔ ∃ r ∈ tt', r.path = b := by
  constructor
  · intro h b hb
    have : b ∈ stationBlocks bs tt ↔ b ∈ stationBlocks bs tt' := by rw [h]
    simpa [stationBlocks, hb] using this
  · intro h
    unfold stationBlocks
    refine List.filter_congr fun b hb => ?_
    simp only [h b hb]

/-- C28: at every station that is asked for and not excluded, the groups contain exactly the trains
calling there that are not excluded, each once; no group is empty; two trains are in a group together
exactly if they run over the same blocks of the station. -/
theorem C28_groups (td : Trains) (st : Stations) (hkt : (Dict.keys td).Nodup)
    (hks : (Dict.keys st).Nodup) (htag : Tagged st td) (imp : Option (List String))
    (d : Dict String (List (List Int))) (h : jtrack td st imp = .ok d) (s : String)
    (bs : List String) (hs : (s, bs) ∈ st) (himp : s ∈ chosen st imp)
    (hex : s ∉ ["KO(KS)", "KO(IC)"]) :
    ∃ gs, Dict.get? d s = some gs ∧ (∀ g ∈ gs, g ≠ []) ∧ (flatten gs).Nodup ∧
      (∀ t, t ∈ flatten gs ↔ ∃ tt, TableOf td t tt ∧ CallsAt st tt s ∧ ¬ ExcludedTrain bs tt) ∧
      (∀ t tt t' tt', TableOf td t tt → TableOf td t' tt' → t ∈ flatten gs → t' ∈ flatten gs →
        ((∃ g ∈ gs, t ∈ g ∧ t' ∈ g) ↔
          ∀ b, BelongsTo st b s → ((∃ r ∈ tt, r.path = b) ↔ ∃ r ∈ tt', r.path = b))) := by
  obtain ⟨gs, h1, h2⟩ := (jtrack_eq h s).2 himp hex
  obtain ⟨bl, hnd, h3, h4⟩ := trackGroups_ok hkt hks htag hs
  rw [h3] at h1
  cases h1
  have hne : ∀ b ∈ bl, ((trainsAt td false bs).filter
      fun j => decide (blocksOfTrain td bs j = b)) ≠ [] := by
    intro b hb hnil
    obtain ⟨_, j, hj, hjb⟩ := (h4 b).1 hb
    have : j ∈ (trainsAt td false bs).filter fun j => decide (blocksOfTrain td bs j = b) :=
      List.mem_filter.2 ⟨hj, by simpa using hjb⟩
    rw [hnil] at this; cases this
  have hfil : (([] :: bl.map fun b => (trainsAt td false bs).filter
      fun j => decide (blocksOfTrain td bs j = b)).filter
        fun g : List Int => decide (g.length ≠ 0)) =
      bl.map fun b => (trainsAt td false bs).filter fun j => decide (blocksOfTrain td bs j = b) := by
    rw [List.filter_cons_of_neg (by simp)]
    rw [List.filter_eq_self]
    intro g hg
    obtain ⟨b, hb, rfl⟩ := List.mem_map.1 hg
    have := hne b hb
    simp only [decide_eq_true_eq, ne_eq, List.length_eq_zero_iff]
    exact this
  rw [hfil] at h2
  have hmem : ∀ t, t ∈ flatten (bl.map fun b => (trainsAt td false bs).filter
      fun j => decide (blocksOfTrain td bs j = b)) ↔
      t ∈ trainsAt td false bs ∧ blocksOfTrain td bs t ∉ blockExclusion := by
    intro t
    unfold flatten
    rw [List.mem_flatMap]
    constructor
    · rintro ⟨g, hg, ht⟩
      obtain ⟨b, hb, rfl⟩ := List.mem_map.1 hg
      rw [List.mem_filter] at ht
      have hb' : blocksOfTrain td bs t = b := by simpa using ht.2
      subst hb'
      exact ⟨ht.1, ((h4 _).1 hb).1⟩
    · rintro ⟨ht, hb⟩
      exact ⟨_, List.mem_map.2 ⟨_, (h4 _).2 ⟨hb, t, ht, rfl⟩, rfl⟩,
        List.mem_filter.2 ⟨ht, by simp⟩⟩
  have hblocks : ∀ t tt, TableOf td t tt → blocksOfTrain td bs t = stationBlocks bs tt := by
    rintro t tt ⟨info, ht⟩
    simp only [blocksOfTrain, ht]
  refine ⟨_, h2, ?_, ?_, ?_, ?_⟩
  · intro g hg
    obtain ⟨b, hb, rfl⟩ := List.mem_map.1 hg
    exact hne b hb
  · unfold flatten
    rw [List.nodup_flatMap]
    constructor
    · intro g hg
      obtain ⟨b, hb, rfl⟩ := List.mem_map.1 hg
      exact (trainsAt_nodup hkt false bs).filter _
    · rw [List.pairwise_map]
      refine hnd.imp_of_mem ?_
      intro a b _ _ hab x hxa hxb
      rw [List.mem_filter] at hxa hxb
      have e1 : blocksOfTrain td bs x = a := by simpa using hxa.2
      have e2 : blocksOfTrain td bs x = b := by simpa using hxb.2
      exact hab (e1 ▸ e2)
  · intro t
    rw [hmem, mem_trainsAt hkt]
    constructor
    · rintro ⟨⟨tt, ht, hc⟩, hb⟩
      refine ⟨tt, ht, (calls_iff hks hs tt).2 (isAtStation_false.1 hc), ?_⟩
      rw [← excluded_iff, ← hblocks t tt ht]
      exact hb
    · rintro ⟨tt, ht, hc, hb⟩
      refine ⟨⟨tt, ht, isAtStation_false.2 ((calls_iff hks hs tt).1 hc)⟩, ?_⟩
      rw [hblocks t tt ht, excluded_iff]
      exact hb
  · intro t tt t' tt' ht ht' hm hm'
    simp only [belongs_iff hks hs]
    rw [← stationBlocks_congr, ← hblocks t tt ht, ← hblocks t' tt' ht']
    rw [hmem] at hm hm'
    constructor
    · rintro ⟨g, hg, h5, h6⟩
      obtain ⟨b, hb, rfl⟩ := List.mem_map.1 hg
      rw [List.mem_filter] at h5 h6
      have e1 : blocksOfTrain td bs t = b := by simpa using h5.2
      have e2 : blocksOfTrain td bs t' = b := by simpa using h6.2
      rw [e1, e2]
    · intro e
      refine ⟨_, List.mem_map.2 ⟨_, (h4 _).2 ⟨hm.2, t, hm.1, rfl⟩, rfl⟩,
        List.mem_filter.2 ⟨hm.1, by simp⟩, List.mem_filter.2 ⟨hm'.1, by simp [e]⟩⟩

/-- C28: stations that are excluded or not asked for have no groups. -/
theorem C28_others (td : Trains) (st : Stations) (imp : Option (List String))
    (d : Dict String (List (List Int))) (h : jtrack td st imp = .ok d) (s : String)
    (hs : s ∉ chosen st imp ∨ s ∈ ["KO(KS)", "KO(IC)"]) : Dict.get? d s = none :=
  (jtrack_eq h s).1 hs

/-- C28: the groups are found if all stations asked for are known. -/
theorem C28_found (td : Trains) (st : Stations) (hkt : (Dict.keys td).Nodup)
    (hks : (Dict.keys st).Nodup) (htag : Tagged st td) (imp : Option (List String))
    (himp : ∀ s ∈ chosen st imp, s ∈ Dict.keys st) : ∃ d, jtrack td st imp = .ok d := by
  have key : ∃ r, loop (chosen st imp) (fun (d : Dict String (List (List Int))) s =>
      if s ∈ stationExclusion then .ok d else do
        let js ← Dict.at! (importantTrainsAndStations td st imp false).2 s
        let r ← loop js (jtrackStep td st s) ([], [[]])
        .ok (Dict.set d s r.2)) [] = .ok r := by
    have : ∀ (l : List String) (d : Dict String (List (List Int))), (∀ s ∈ l, s ∈ Dict.keys st) →
        ∃ r, loop l (fun (d : Dict String (List (List Int))) s =>
      if s ∈ stationExclusion then .ok d else do
        let js ← Dict.at! (importantTrainsAndStations td st imp false).2 s
        let r ← loop js (jtrackStep td st s) ([], [[]])
        .ok (Dict.set d s r.2)) d = .ok r := by
      intro l
      induction l with
      | nil => intro d _; exact ⟨d, rfl⟩
      | cons x l ih =>
        intro d hl
        simp only [loop]
        by_cases hx : x ∈ stationExclusion
        · rw [if_pos hx]
          exact ih d fun s hs => hl s (List.mem_cons_of_mem _ hs)
        · rw [if_neg hx]
          obtain ⟨⟨x', bs⟩, hm, rfl⟩ := List.mem_map.1 (hl x List.mem_cons_self)
          obtain ⟨bl, _, h2, _⟩ := trackGroups_ok hkt hks htag hm
          unfold trackGroups at h2
          have e : (importantTrainsAndStations td st imp false).2 =
            getTrainsAtStation td st false := by cases imp <;> rfl
          rw [e]
          obtain ⟨js, h3, h2⟩ := bind_ok h2
          obtain ⟨r, h4, h2⟩ := bind_ok h2
          rw [h3]
          simp only [bind, Except.bind]
          rw [h4]
          rw [e] at ih
          exact ih _ fun s hs => hl s (List.mem_cons_of_mem _ hs)
    exact this _ _ himp
  obtain ⟨r, hr⟩ := key
  refine ⟨r.map fun e => (e.1, e.2.filter fun g => decide (g.length ≠ 0)), ?_⟩
  unfold jtrack
  simp only
  rw [important_fst, hr]
  rfl

/-- C28, the consequence stated in the property: trains with a common block of the station are in a
common group. -/
def C28_common_statement (td : Trains) (st : Stations) (s : String) (gs : List (List Int)) : Prop :=
  ∀ t tt t' tt', TableOf td t tt → TableOf td t' tt' → t ∈ flatten gs → t' ∈ flatten gs →
    (∃ b, BelongsTo st b s ∧ (∃ r ∈ tt, r.path = b) ∧ ∃ r ∈ tt', r.path = b) →
    ∃ g ∈ gs, t ∈ g ∧ t' ∈ g

/-- The consequence holds for trains that have at most one block in each station. Missing: other
trains, for which it is false. -/
theorem C28_common_partial (td : Trains) (st : Stations) (hkt : (Dict.keys td).Nodup)
    (hks : (Dict.keys st).Nodup) (htag : Tagged st td) (ho : ∀ e ∈ td, OnceEach e.2.2)
    (imp : Option (List String)) (d : Dict String (List (List Int)))
    (h : jtrack td st imp = .ok d) (s : String) (gs : List (List Int))
    (hg : Dict.get? d s = some gs) : C28_common_statement td st s gs := by
  intro t tt t' tt' ht ht' hm hm' ⟨b, hb, ⟨r, hr, hrb⟩, ⟨r', hr', hrb'⟩⟩
  have hs : ∃ bs, (s, bs) ∈ st := by obtain ⟨bs, h1, _⟩ := hb; exact ⟨bs, h1⟩
  obtain ⟨bs, hs⟩ := hs
  by_cases hc : s ∉ chosen st imp ∨ s ∈ ["KO(KS)", "KO(IC)"]
  · rw [C28_others td st imp d h s hc] at hg; cases hg
  · push Not at hc
    obtain ⟨gs', h1, _, _, _, h5⟩ := C28_groups td st hkt hks htag imp d h s bs hs hc.1 hc.2
    rw [hg] at h1
    cases h1
    rw [h5 t tt t' tt' ht ht' hm hm']
    obtain ⟨i, hi⟩ := ht.mem
    obtain ⟨i', hi'⟩ := ht'.mem
    have only : ∀ {e : Int × Entry Row}, e ∈ td → ∀ x ∈ e.2.2, x.path = b → ∀ y ∈ e.2.2,
        BelongsTo st y.path s → y = x := by
      intro e he x hx hxb y hy hyb
      have h1 := (htag e he x hx s).2 (hxb ▸ hb)
      have h2 := (htag e he y hy s).2 hyb
      have ho := ho e he
      unfold OnceEach at ho
      clear hm hm' ht ht' htag
      obtain ⟨A, B, hAB⟩ := List.append_of_mem hx
      rw [hAB] at ho hy
      rw [List.filterMap_append, List.filterMap_cons_some h1, List.nodup_append,
        List.nodup_cons] at ho
      rcases List.mem_append.1 hy with hy | hy
      · exact absurd rfl (ho.2.2 s (List.mem_filterMap.2 ⟨y, hy, h2⟩) s (by simp))
      · rcases List.mem_cons.1 hy with rfl | hy
        · rfl
        · exact absurd (List.mem_filterMap.2 ⟨y, hy, h2⟩) ho.2.1.1
    intro c hc
    constructor
    · rintro ⟨x, hx, rfl⟩
      have := only hi r hr hrb x hx hc
      subst this
      exact ⟨r', hr', hrb'.trans hrb.symm⟩
    · rintro ⟨x, hx, rfl⟩
      have := only hi' r' hr' hrb' x hx hc
      subst this
      exact ⟨r, hr, hrb.trans hrb'.symm⟩

/-- two trains on block `a` of the station, the second one also on block `a2` -/
def trackTrains : Trains :=
  [(1, ([], [{ path := "a", station := some "A" }, { path := "l" }])),
   (2, ([], [{ path := "a", station := some "A" }, { path := "a2", station := some "A" }])),
   (3, ([], [{ path := "l" }, { path := "a", station := some "A" }]))]
/-- the station -/
def trackStation : Stations := [("A", ["a", "a2", "a3"])]

theorem trackTrains_tagged : Tagged trackStation trackTrains := by
  intro e he r hr s
  have h : ∀ e ∈ trackTrains, ∀ r ∈ e.2.2, (r.path ∈ ["a", "a2", "a3"] ∧ r.station = some "A") ∨
      (r.path ∉ ["a", "a2", "a3"] ∧ r.station = none) := by decide +kernel
  rcases h e he r hr with ⟨h1, h2⟩ | ⟨h1, h2⟩
  · rw [h2]
    constructor
    · rintro ⟨⟩; exact ⟨_, List.mem_singleton_self _, h1⟩
    · rintro ⟨bs, hm, hb⟩
      simp only [trackStation, List.mem_singleton, Prod.mk.injEq] at hm
      rw [hm.1]
  · rw [h2]
    constructor
    · rintro ⟨⟩
    · rintro ⟨bs, hm, hb⟩
      simp only [trackStation, List.mem_singleton, Prod.mk.injEq] at hm
      rw [hm.2] at hb
      exact absurd hb h1

/-- the hypotheses of `C28_groups` for a station with two groups -/
example : (Dict.keys trackTrains).Nodup ∧ (Dict.keys trackStation).Nodup ∧
    Tagged trackStation trackTrains ∧
    jtrack trackTrains trackStation none = .ok [("A", [[1, 3], [2]])] :=
  ⟨by decide +kernel, by decide +kernel, trackTrains_tagged, by decide +kernel⟩

/-- The consequence is false of the code: trains 1 and 2 both use block `a`, but are in different
groups. -/
theorem C28_common_false : (Dict.keys trackTrains).Nodup ∧ (Dict.keys trackStation).Nodup ∧
    Tagged trackStation trackTrains ∧
    ∃ gs, jtrack trackTrains trackStation none = .ok [("A", gs)] ∧
      ¬ C28_common_statement trackTrains trackStation "A" gs := by
  refine ⟨by decide +kernel, by decide +kernel, trackTrains_tagged, [[1, 3], [2]],
    by decide +kernel, ?_⟩
  intro h
  have := h 1 _ 2 _ ⟨_, rfl⟩ ⟨_, rfl⟩ (by decide +kernel) (by decide +kernel)
    ⟨"a", ⟨_, List.mem_singleton_self _, by decide +kernel⟩,
      ⟨{ path := "a", station := some "A" }, by decide +kernel, rfl⟩,
      ⟨{ path := "a", station := some "A" }, by decide +kernel, rfl⟩⟩
  revert this; decide +kernel

end Verif
