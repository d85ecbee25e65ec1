import Verif.Proofs.AtStation

/-!
# C29: groups of trains that follow each other
-/

namespace Verif

/-- the next station of a train, as a function of the train -/
def nextOf (td : Trains) (s : String) (t : Int) : Option String :=
  match Dict.get? td t with
  | some e => nextStation e.2 s
  | .none => none

/-- the blocks of a train between two stations, as a function of the train -/
def betweenOf (td : Trains) (s s2 : String) (t : Int) : List String :=
  match Dict.get? td t with
  | some e => (blocksBetween e.2 s s2).1
  | .none => []

/-- the group takes the train: the blocks of the train are among those of the first of the group -/
def takes (td : Trains) (s s2 : String) (j : Int) (g : List Int) : Bool :=
  match g with
  | [] => false
  | h :: _ => decide (∀ b ∈ betweenOf td s s2 j, b ∈ betweenOf td s s2 h)

theorem jdInner_eq {td : Trains} {tt : List Row} {info : List String} {j : Int}
    (hj : Dict.get? td j = some (info, tt)) (s s2 : String) {gs : List (List Int)}
    (hgs : ∀ g ∈ gs, g ≠ [] ∧ ∀ t ∈ g, ∃ e, Dict.get? td t = some e) (added : Bool) :
    jdInner td tt j s s2 gs added =
      .ok (gs.map fun g => if takes td s s2 j g then g ++ [j] else g,
        added || gs.any (takes td s s2 j)) := by
  induction gs generalizing added with
  | nil => simp [jdInner]
  | cons g gs ih =>
    obtain ⟨hne, hmem⟩ := hgs g List.mem_cons_self
    cases g with
    | nil => exact absurd rfl hne
    | cons h rest =>
      obtain ⟨e, he⟩ := hmem h List.mem_cons_self
      unfold jdInner
      have hat : Dict.at! td h = .ok e := Dict.at!_ok.2 he
      have hchk : decide (commonPath tt e.2 s s2 = (blocksBetween tt s s2).1) =
          takes td s s2 j (h :: rest) := by
        simp only [takes, betweenOf, hj, he]
        congr 1
        rw [commonPath_eq_iff]
      simp only [nth, List.getElem?_cons_zero, bind, Except.bind, hat]
      rw [ih fun g hg => hgs g (List.mem_cons_of_mem _ hg)]
      simp only [hchk]
      simp only [List.map_cons, List.any_cons, ne_eq, reduceCtorEq, not_false_eq_true, decide_true,
        Bool.true_and]
      cases takes td s s2 j (h :: rest) <;> simp

/-- adding a train to the groups -/
def addTrain (td : Trains) (s s2 : String) (j : Int) (gs : List (List Int)) : List (List Int) :=
  if gs.any (takes td s s2 j) then gs.map fun g => if takes td s s2 j g then g ++ [j] else g
  else gs ++ [[j]]

theorem mem_addTrain {td : Trains} {s s2 : String} {j t : Int} {gs : List (List Int)} :
    t ∈ flatten (addTrain td s s2 j gs) ↔ t ∈ flatten gs ∨ t = j := by
  unfold addTrain flatten
  split
  · rename_i hany
    simp only [List.mem_flatMap, List.mem_map]
    constructor
    · rintro ⟨g, ⟨g', hg', rfl⟩, ht⟩
      split at ht
      · rcases List.mem_append.1 ht with ht | ht
        · exact .inl ⟨g', hg', ht⟩
        · exact .inr (by simpa using ht)
      · exact .inl ⟨g', hg', ht⟩
    · rintro (⟨g, hg, ht⟩ | rfl)
      · refine ⟨_, ⟨g, hg, rfl⟩, ?_⟩
        split
        · exact List.mem_append_left _ ht
        · exact ht
      · obtain ⟨g, hg, htk⟩ := List.any_eq_true.1 hany
        exact ⟨_, ⟨g, hg, rfl⟩, by rw [if_pos htk]; simp⟩
  · simp

/-- One round of the outer `while` loop of `jd` is enough, so the bound on the number of rounds in
the model is not reached. -/
theorem jdWhile_ok {td : Trains} {tt : List Row} {info : List String} {j : Int}
    (hj : Dict.get? td j = some (info, tt)) (s s2 : String) {gs : List (List Int)}
    (hgs : ∀ g ∈ gs, g ≠ [] ∧ ∀ t ∈ g, ∃ e, Dict.get? td t = some e) (n : Nat) :
    jdWhile td tt j s s2 (n + 1) gs =
      .ok (if j ∈ flatten gs then gs else addTrain td s s2 j gs) := by
  unfold jdWhile
  by_cases hin : j ∈ flatten gs
  · rw [if_pos hin, if_pos hin]
  · rw [if_neg hin, if_neg hin]
    simp only [jdInner_eq hj s s2 hgs, bind, Except.bind, Bool.false_or]
    have hadd : (if (gs.any (takes td s s2 j)) = false then
        (gs.map fun g => if takes td s s2 j g then g ++ [j] else g) ++ [[j]]
        else gs.map fun g => if takes td s s2 j g then g ++ [j] else g) = addTrain td s s2 j gs := by
      unfold addTrain
      cases hany : gs.any (takes td s s2 j) with
      | true => simp
      | false =>
        simp only [if_true, Bool.false_eq_true, if_false]
        congr 1
        have hany' : ∀ g ∈ gs, takes td s s2 j g = false := by
          simpa using hany
        conv_rhs => rw [← List.map_id gs]
        refine List.map_congr_left fun g hg => ?_
        rw [hany' g hg]; rfl
    rw [hadd]
    unfold jdWhile
    rw [if_pos (mem_addTrain.2 (.inr rfl))]

/-- no block list of a train running from `s` to `s2` is contained in another one -/
def NoContained (td : Trains) (s s2 : String) : Prop :=
  ∀ t t', nextOf td s t = some s2 → nextOf td s t' = some s2 →
    (∀ b ∈ betweenOf td s s2 t, b ∈ betweenOf td s s2 t') →
    betweenOf td s s2 t = betweenOf td s s2 t'

/-- what holds of the groups after some trains -/
structure JdInv (td : Trains) (s : String) (js : List Int) (d : Dict String (List (List Int))) :
    Prop where
  mem : ∀ s2 t, (∃ gs, Dict.get? d s2 = some gs ∧ t ∈ flatten gs) ↔
    t ∈ js ∧ nextOf td s t = some s2
  full : ∀ s2 gs, Dict.get? d s2 = some gs → gs ≠ []
  ne : ∀ s2 gs, Dict.get? d s2 = some gs → ∀ g ∈ gs, g ≠ []
  sub : ∀ s2 gs, Dict.get? d s2 = some gs → ∀ h rest, h :: rest ∈ gs → ∀ t ∈ rest,
    ∀ b ∈ betweenOf td s s2 t, b ∈ betweenOf td s s2 h
  once : ∀ s2 gs, Dict.get? d s2 = some gs → NoContained td s s2 → (flatten gs).Nodup
  same : ∀ s2 gs, Dict.get? d s2 = some gs → NoContained td s s2 →
    ∀ g ∈ gs, ∀ g' ∈ gs, ∀ t ∈ g, ∀ t' ∈ g',
      (betweenOf td s s2 t = betweenOf td s s2 t' ↔ g = g')
  order : ∀ s2 gs, Dict.get? d s2 = some gs → ∀ g ∈ gs, g.Sublist js
  together : ∀ s2 gs, Dict.get? d s2 = some gs → ∀ t ∈ flatten gs, ∀ t' ∈ flatten gs,
    betweenOf td s s2 t = betweenOf td s s2 t' → ∃ g ∈ gs, t ∈ g ∧ t' ∈ g

theorem addTrain_ne {td : Trains} {s s2 : String} {j : Int} {gs : List (List Int)}
    (h : ∀ g ∈ gs, g ≠ []) : ∀ g ∈ addTrain td s s2 j gs, g ≠ [] := by
  unfold addTrain
  intro g hg
  split at hg
  · obtain ⟨g', hg', rfl⟩ := List.mem_map.1 hg
    split
    · simp
    · exact h g' hg'
  · rcases List.mem_append.1 hg with hg | hg
    · exact h g hg
    · rw [List.mem_singleton.1 hg]; simp

theorem takes_iff {td : Trains} {s s2 : String} {j h : Int} {rest : List Int} :
    takes td s s2 j (h :: rest) = true ↔ ∀ b ∈ betweenOf td s s2 j, b ∈ betweenOf td s s2 h := by
  simp [takes]

theorem jd_groups {td : Trains} {s : String} {js : List Int} (hnd : js.Nodup)
    (hjs : ∀ j ∈ js, ∃ e, Dict.get? td j = some e) :
    ∃ d, loop js (jdStep td s) [] = .ok d ∧ JdInv td s js d := by
  induction js using List.reverseRecOn with
  | nil => exact ⟨[], rfl, by constructor <;> simp [Dict.get?]⟩
  | append_singleton js j ih =>
    rw [List.nodup_append] at hnd
    obtain ⟨d, h1, inv⟩ := ih hnd.1 fun i hi => hjs i (List.mem_append_left _ hi)
    have hjn : j ∉ js := fun h => hnd.2.2 j h j (by simp) rfl
    obtain ⟨⟨info, tt⟩, he⟩ := hjs j (by simp)
    rw [loop_append, h1]
    simp only [bind, Except.bind, loop]
    unfold jdStep
    rw [show Dict.at! td j = .ok (info, tt) from Dict.at!_ok.2 he]
    simp only [bind, Except.bind]
    have hnx : nextOf td s j = nextStation tt s := by simp [nextOf, he]
    cases hn : nextStation tt s with
    | none =>
      rw [hn] at hnx
      refine ⟨d, rfl, ?_, inv.full, inv.ne, inv.sub, inv.once, inv.same, fun s2 gs h g hg =>
        (inv.order s2 gs h g hg).trans (List.sublist_append_left _ _), inv.together⟩
      intro s2 t
      rw [inv.mem]
      constructor
      · rintro ⟨a, b⟩; exact ⟨List.mem_append_left _ a, b⟩
      · rintro ⟨a, b⟩
        rcases List.mem_append.1 a with a | a
        · exact ⟨a, b⟩
        · simp only [List.mem_singleton] at a; subst a
          rw [hnx] at b; cases b
    | some s2 =>
      rw [hn] at hnx
      simp only
      set gs := (Dict.get? d s2).getD [] with hgsdef
      -- facts about the old groups
      have hold : gs = [] ∨ Dict.get? d s2 = some gs := by
        cases hg : Dict.get? d s2 with
        | none => left; rw [hgsdef, hg]; rfl
        | some x => right; rw [hgsdef, hg]; rfl
      have hmemgs : ∀ t, t ∈ flatten gs ↔ t ∈ js ∧ nextOf td s t = some s2 := by
        intro t
        rw [← inv.mem]
        rcases hold with h | h
        · constructor
          · intro ht; rw [h] at ht; cases ht
          · rintro ⟨gs', hg', ht⟩
            rw [hgsdef, hg']; exact ht
        · constructor
          · intro ht; exact ⟨gs, h, ht⟩
          · rintro ⟨gs', hg', ht⟩
            rw [h] at hg'; cases hg'; exact ht
      have hnegs : ∀ g ∈ gs, g ≠ [] := by
        rcases hold with h | h
        · rw [h]; simp
        · exact inv.ne s2 gs h
      have hvalid : ∀ g ∈ gs, g ≠ [] ∧ ∀ t ∈ g, ∃ e, Dict.get? td t = some e := by
        intro g hg
        refine ⟨hnegs g hg, fun t ht => ?_⟩
        have : t ∈ flatten gs := by
          unfold flatten; exact List.mem_flatMap.2 ⟨g, hg, ht⟩
        exact hjs t (List.mem_append_left _ ((hmemgs t).1 this).1)
      have hjgs : j ∉ flatten gs := fun h => hjn ((hmemgs j).1 h).1
      have hsubgs : ∀ h rest, h :: rest ∈ gs → ∀ t ∈ rest,
          ∀ b ∈ betweenOf td s s2 t, b ∈ betweenOf td s s2 h := by
        rcases hold with h | h
        · rw [h]; simp
        · exact inv.sub s2 gs h
      have hflat : ∀ g ∈ gs, ∀ t ∈ g, t ∈ js ∧ nextOf td s t = some s2 := by
        intro g hg t ht
        exact (hmemgs t).1 (List.mem_flatMap.2 ⟨g, hg, ht⟩)
      rw [jdWhile_ok he s s2 hvalid 1, if_neg hjgs]
      refine ⟨_, rfl, ?_, ?_, ?_, ?_, ?_, ?_, ?_, ?_⟩
      · intro s3 t
        rw [Dict.get?_set]
        by_cases h3 : s3 = s2
        · subst h3
          rw [if_pos rfl]
          constructor
          · rintro ⟨gs', hg', ht⟩
            cases hg'
            rcases mem_addTrain.1 ht with ht | rfl
            · exact ⟨List.mem_append_left _ ((hmemgs t).1 ht).1, ((hmemgs t).1 ht).2⟩
            · exact ⟨by simp, hnx⟩
          · rintro ⟨ha, hb⟩
            refine ⟨_, rfl, mem_addTrain.2 ?_⟩
            rcases List.mem_append.1 ha with ha | ha
            · exact .inl ((hmemgs t).2 ⟨ha, hb⟩)
            · exact .inr (by simpa using ha)
        · rw [if_neg h3, inv.mem]
          constructor
          · rintro ⟨a, b⟩; exact ⟨List.mem_append_left _ a, b⟩
          · rintro ⟨a, b⟩
            rcases List.mem_append.1 a with a | a
            · exact ⟨a, b⟩
            · simp only [List.mem_singleton] at a; subst a
              rw [hnx] at b; cases b; exact absurd rfl h3
      · intro s3 gs' hg'
        rw [Dict.get?_set] at hg'
        split at hg'
        · cases hg'
          intro h0
          have : j ∈ flatten (addTrain td s s2 j gs) := mem_addTrain.2 (.inr rfl)
          rw [h0] at this; cases this
        · exact inv.full s3 gs' hg'
      · intro s3 gs' hg'
        rw [Dict.get?_set] at hg'
        split at hg'
        · cases hg'; exact addTrain_ne hnegs
        · exact inv.ne s3 gs' hg'
      · intro s3 gs' hg'
        rw [Dict.get?_set] at hg'
        split at hg'
        · rename_i h3; subst h3
          cases hg'
          intro h rest hm
          unfold addTrain at hm
          split at hm
          · obtain ⟨g', hg', e⟩ := List.mem_map.1 hm
            cases g' with
            | nil => exact absurd rfl (hnegs _ hg')
            | cons a l =>
              split at e
              · rename_i htk
                simp only [List.cons_append, List.cons.injEq] at e
                obtain ⟨rfl, rfl⟩ := e
                intro t ht
                rcases List.mem_append.1 ht with ht | ht
                · exact hsubgs _ _ hg' t ht
                · simp only [List.mem_singleton] at ht; subst ht
                  exact takes_iff.1 htk
              · cases e
                exact hsubgs _ _ hg'
          · rcases List.mem_append.1 hm with hm | hm
            · exact hsubgs _ _ hm
            · simp only [List.mem_singleton, List.cons.injEq] at hm
              obtain ⟨rfl, rfl⟩ := hm
              simp
        · exact inv.sub s3 gs' hg'
      · intro s3 gs' hg' hanti
        rw [Dict.get?_set] at hg'
        split at hg'
        · rename_i h3; subst h3
          cases hg'
          have hondgs : (flatten gs).Nodup := by
            rcases hold with h | h
            · rw [h]; exact List.nodup_nil
            · exact inv.once s3 gs h hanti
          have hsame : ∀ g ∈ gs, ∀ g' ∈ gs, ∀ t ∈ g, ∀ t' ∈ g',
              (betweenOf td s s3 t = betweenOf td s s3 t' ↔ g = g') := by
            rcases hold with h | h
            · rw [h]; simp
            · exact inv.same s3 gs h hanti
          have htk : ∀ g ∈ gs, takes td s s3 j g = true →
              ∀ t ∈ g, betweenOf td s s3 t = betweenOf td s s3 j := by
            intro g hg htk t ht
            cases g with
            | nil => cases ht
            | cons h rest =>
              have e1 := hanti j h hnx (hflat _ hg h List.mem_cons_self).2 (takes_iff.1 htk)
              rw [(hsame _ hg _ hg t ht h List.mem_cons_self).2 rfl, e1]
          unfold addTrain
          split
          · -- exactly one group takes the train
            have hone : ∀ g ∈ gs, ∀ g' ∈ gs, takes td s s3 j g = true →
                takes td s s3 j g' = true → g = g' := by
              intro g hg g' hg' h1 h2
              obtain ⟨a, l, rfl⟩ := List.exists_cons_of_ne_nil (hnegs g hg)
              obtain ⟨a', l', rfl⟩ := List.exists_cons_of_ne_nil (hnegs g' hg')
              refine (hsame _ hg _ hg' a (by simp) a' (by simp)).1 ?_
              rw [htk _ hg h1 a (by simp), htk _ hg' h2 a' (by simp)]
            unfold flatten at hondgs hjgs ⊢
            rw [List.nodup_flatMap] at hondgs ⊢
            constructor
            · intro g hg
              obtain ⟨g', hg', rfl⟩ := List.mem_map.1 hg
              split
              · rw [List.nodup_append]
                refine ⟨hondgs.1 g' hg', by simp, ?_⟩
                intro a ha b hb
                simp only [List.mem_singleton] at hb; subst hb
                rintro rfl
                exact hjgs (List.mem_flatMap.2 ⟨g', hg', ha⟩)
              · exact hondgs.1 g' hg'
            · rw [List.pairwise_map]
              refine hondgs.2.imp_of_mem ?_
              intro g g' hg hg' hdis x hx hx'
              have hx1 : x ∈ g ∨ (takes td s s3 j g = true ∧ x = j) := by
                split at hx
                · rename_i htk
                  rcases List.mem_append.1 hx with h | h
                  · exact .inl h
                  · exact .inr ⟨htk, by simpa using h⟩
                · exact .inl hx
              have hx2 : x ∈ g' ∨ (takes td s s3 j g' = true ∧ x = j) := by
                split at hx'
                · rename_i htk
                  rcases List.mem_append.1 hx' with h | h
                  · exact .inl h
                  · exact .inr ⟨htk, by simpa using h⟩
                · exact .inl hx'
              rcases hx1 with h1 | ⟨t1, rfl⟩
              · rcases hx2 with h2 | ⟨t2, rfl⟩
                · exact hdis h1 h2
                · exact hjgs (List.mem_flatMap.2 ⟨g, hg, h1⟩)
              · rcases hx2 with h2 | ⟨t2, _⟩
                · exact hjgs (List.mem_flatMap.2 ⟨g', hg', h2⟩)
                · have := hone g hg g' hg' t1 t2
                  subst this
                  obtain ⟨a, l, rfl⟩ := List.exists_cons_of_ne_nil (hnegs g hg)
                  exact hdis (a := a) (by simp) (by simp)
          · unfold flatten at hondgs hjgs ⊢
            rw [List.flatMap_append, List.nodup_append]
            refine ⟨hondgs, by simp, ?_⟩
            intro a ha b hb
            simp only [List.flatMap_cons, List.flatMap_nil, List.append_nil, List.mem_singleton] at hb
            subst hb
            rintro rfl; exact hjgs ha
        · exact inv.once s3 gs' hg' hanti
      · intro s3 gs' hg' hanti
        rw [Dict.get?_set] at hg'
        split at hg'
        · rename_i h3; subst h3
          cases hg'
          have hsame : ∀ g ∈ gs, ∀ g' ∈ gs, ∀ t ∈ g, ∀ t' ∈ g',
              (betweenOf td s s3 t = betweenOf td s s3 t' ↔ g = g') := by
            rcases hold with h | h
            · rw [h]; simp
            · exact inv.same s3 gs h hanti
          have htk : ∀ g ∈ gs, (takes td s s3 j g = true ↔
              ∃ t ∈ g, betweenOf td s s3 t = betweenOf td s s3 j) := by
            intro g hg
            constructor
            · intro htk
              cases g with
              | nil => exact absurd rfl (hnegs _ hg)
              | cons h rest =>
                exact ⟨h, List.mem_cons_self,
                  (hanti j h hnx (hflat _ hg h List.mem_cons_self).2 (takes_iff.1 htk)).symm⟩
            · rintro ⟨t, ht, e⟩
              cases g with
              | nil => cases ht
              | cons h rest =>
                rw [takes_iff, ← e, (hsame _ hg _ hg t ht h List.mem_cons_self).2 rfl]
                exact fun b hb => hb
          -- every new group comes from an old one or is the new train alone
          have hfrom : ∀ g ∈ addTrain td s s3 j gs, ∀ t ∈ g,
              (∃ g0 ∈ gs, g = (if takes td s s3 j g0 then g0 ++ [j] else g0) ∧
                (t ∈ g0 ∨ (t = j ∧ takes td s s3 j g0 = true))) ∨
              (g = [j] ∧ t = j ∧ ∀ g0 ∈ gs, takes td s s3 j g0 = false) := by
            intro g hg t ht
            unfold addTrain at hg
            split at hg
            · obtain ⟨g0, hg0, rfl⟩ := List.mem_map.1 hg
              left
              refine ⟨g0, hg0, rfl, ?_⟩
              split at ht
              · rename_i h
                rcases List.mem_append.1 ht with ht | ht
                · exact .inl ht
                · exact .inr ⟨by simpa using ht, h⟩
              · exact .inl ht
            · rename_i hany
              have hall : ∀ g0 ∈ gs, takes td s s3 j g0 = false := by simpa using hany
              rcases List.mem_append.1 hg with hg | hg
              · left
                exact ⟨g, hg, by rw [hall g hg]; rfl, .inl ht⟩
              · right
                rw [List.mem_singleton.1 hg] at ht ⊢
                exact ⟨rfl, by simpa using ht, hall⟩
          intro g hg g' hg' t ht t' ht'
          constructor
          · intro e
            rcases hfrom g hg t ht with ⟨g0, hg0, rfl, h0⟩ | ⟨rfl, rfl, hall⟩
            · rcases hfrom g' hg' t' ht' with ⟨g1, hg1, rfl, h1⟩ | ⟨rfl, rfl, hall⟩
              · have : g0 = g1 := by
                  rcases h0 with h0 | ⟨rfl, h0⟩
                  · rcases h1 with h1 | ⟨rfl, h1⟩
                    · exact (hsame g0 hg0 g1 hg1 t h0 t' h1).1 e
                    · obtain ⟨x, hx, ex⟩ := (htk g1 hg1).1 h1
                      exact (hsame g0 hg0 g1 hg1 t h0 x hx).1 (by rw [e, ex])
                  · obtain ⟨y, hy, ey⟩ := (htk g0 hg0).1 h0
                    rcases h1 with h1 | ⟨rfl, h1⟩
                    · exact (hsame g0 hg0 g1 hg1 y hy t' h1).1 (by rw [ey, e])
                    · obtain ⟨x, hx, ex⟩ := (htk g1 hg1).1 h1
                      exact (hsame g0 hg0 g1 hg1 y hy x hx).1 (by rw [ey, ex])
                rw [this]
              · exfalso
                rcases h0 with h0 | ⟨rfl, h0⟩
                · have := (htk g0 hg0).2 ⟨t, h0, e⟩
                  rw [hall g0 hg0] at this; cases this
                · rw [hall g0 hg0] at h0; cases h0
            · rcases hfrom g' hg' t' ht' with ⟨g1, hg1, rfl, h1⟩ | ⟨rfl, rfl, hall'⟩
              · exfalso
                rcases h1 with h1 | ⟨rfl, h1⟩
                · have := (htk g1 hg1).2 ⟨t', h1, e.symm⟩
                  rw [hall g1 hg1] at this; cases this
                · rw [hall g1 hg1] at h1; cases h1
              · rfl
          · rintro rfl
            -- two members of one group
            rcases hfrom g hg t ht with ⟨g0, hg0, e0, h0⟩ | ⟨rfl, rfl, hall⟩
            · have h1 : t' ∈ g0 ∨ (t' = j ∧ takes td s s3 j g0 = true) := by
                rw [e0] at ht'
                split at ht'
                · rename_i h
                  rcases List.mem_append.1 ht' with ht' | ht'
                  · exact .inl ht'
                  · exact .inr ⟨by simpa using ht', h⟩
                · exact .inl ht'
              have key : ∀ x, (x ∈ g0 ∨ (x = j ∧ takes td s s3 j g0 = true)) →
                  ∃ y ∈ g0, betweenOf td s s3 x = betweenOf td s s3 y := by
                rintro x (hx | ⟨rfl, hx⟩)
                · exact ⟨x, hx, rfl⟩
                · obtain ⟨y, hy, ey⟩ := (htk g0 hg0).1 hx
                  exact ⟨y, hy, ey.symm⟩
              obtain ⟨y, hy, ey⟩ := key t h0
              obtain ⟨y', hy', ey'⟩ := key t' h1
              rw [ey, ey']
              exact (hsame g0 hg0 g0 hg0 y hy y' hy').2 rfl
            · simp only [List.mem_singleton] at ht'
              rw [ht']
        · exact inv.same s3 gs' hg' hanti
      · intro s3 gs' hg'
        rw [Dict.get?_set] at hg'
        have hogs : ∀ g ∈ gs, g.Sublist js := by
          rcases hold with h | h
          · rw [h]; simp
          · exact inv.order s2 gs h
        split at hg'
        · cases hg'
          intro g hg
          unfold addTrain at hg
          split at hg
          · obtain ⟨g', hg', rfl⟩ := List.mem_map.1 hg
            split
            · exact (hogs g' hg').append (List.Sublist.refl _)
            · exact (hogs g' hg').trans (List.sublist_append_left _ _)
          · rcases List.mem_append.1 hg with hg | hg
            · exact (hogs g hg).trans (List.sublist_append_left _ _)
            · rw [List.mem_singleton.1 hg]; exact List.sublist_append_right _ _
        · exact fun g hg => (inv.order s3 gs' hg' g hg).trans (List.sublist_append_left _ _)
      · intro s3 gs' hg'
        rw [Dict.get?_set] at hg'
        split at hg'
        · rename_i h3; subst h3
          cases hg'
          have hto : ∀ t ∈ flatten gs, ∀ t' ∈ flatten gs,
              betweenOf td s s3 t = betweenOf td s s3 t' → ∃ g ∈ gs, t ∈ g ∧ t' ∈ g := by
            rcases hold with h | h
            · rw [h]; simp [flatten]
            · exact inv.together s3 gs h
          -- a group with a train that has the same blocks takes the new train
          have hnew : ∀ t ∈ flatten gs, betweenOf td s s3 t = betweenOf td s s3 j →
              ∃ g ∈ addTrain td s s3 j gs, t ∈ g ∧ j ∈ g := by
            intro t ht e
            obtain ⟨g, hg, htg⟩ := List.mem_flatMap.1 ht
            have htk : takes td s s3 j g = true := by
              cases g with
              | nil => cases htg
              | cons h rest =>
                rw [takes_iff, ← e]
                rcases List.mem_cons.1 htg with rfl | htg
                · exact fun b hb => hb
                · exact hsubgs h rest hg t htg
            refine ⟨g ++ [j], ?_, by simp [show t ∈ g from htg], by simp⟩
            unfold addTrain
            rw [if_pos (List.any_eq_true.2 ⟨g, hg, htk⟩)]
            exact List.mem_map.2 ⟨g, hg, by rw [if_pos htk]⟩
          intro t ht t' ht' e
          rcases mem_addTrain.1 ht with ha | rfl
          · rcases mem_addTrain.1 ht' with hb | rfl
            · obtain ⟨g, hg, h1, h2⟩ := hto t ha t' hb e
              unfold addTrain
              split
              · refine ⟨_, List.mem_map.2 ⟨g, hg, rfl⟩, ?_⟩
                split
                · exact ⟨List.mem_append_left _ h1, List.mem_append_left _ h2⟩
                · exact ⟨h1, h2⟩
              · exact ⟨g, List.mem_append_left _ hg, h1, h2⟩
            · exact hnew t ha e
          · rcases mem_addTrain.1 ht' with hb | rfl
            · obtain ⟨g, hg, h1, h2⟩ := hnew t' hb e.symm
              exact ⟨g, hg, h2, h1⟩
            · obtain ⟨g, hg, h1⟩ := List.mem_flatMap.1 (mem_addTrain (td := td) (s := s) (s2 := s3)
                (gs := gs) (t := t') (j := t') |>.2 (.inr rfl))
              exact ⟨g, hg, h1, h1⟩
        · exact inv.together s3 gs' hg'

/-! ## The property -/

/-- the train runs from `s` to `s'` without another important station between, over the given
blocks -/
def Runs (td : Trains) (t : Int) (s s' : String) (blocks : List String) : Prop :=
  ∃ tt mid, TableOf td t tt ∧ Consecutive tt s s' mid ∧ blocks = mid.map (·.path)

theorem nextOf_iff {td : Trains} (ho : ∀ e ∈ td, OnceEach e.2.2) {s s' : String} {t : Int} :
    nextOf td s t = some s' ↔ ∃ blocks, Runs td t s s' blocks := by
  unfold nextOf
  constructor
  · intro h
    split at h
    · rename_i e he
      obtain ⟨mid, hc⟩ := (next_iff (ho _ (Dict.mem_of_get? he))).1 h
      exact ⟨_, e.2, mid, ⟨e.1, he⟩, hc, rfl⟩
    · cases h
  · rintro ⟨blocks, tt, mid, ⟨info, ht⟩, hc, _⟩
    rw [ht]
    exact (next_iff (ho _ (Dict.mem_of_get? ht))).2 ⟨mid, hc⟩

theorem betweenOf_eq {td : Trains} (ho : ∀ e ∈ td, OnceEach e.2.2) {s s' : String} {t : Int}
    {blocks : List String} (h : Runs td t s s' blocks) : betweenOf td s s' t = blocks := by
  obtain ⟨tt, mid, ⟨info, ht⟩, hc, rfl⟩ := h
  unfold betweenOf
  rw [ht]
  simp only
  rw [consecutive_blocks (ho _ (Dict.mem_of_get? ht)) hc]

theorem jd_station {td : Trains} {st : Stations} (hkt : (Dict.keys td).Nodup)
    (hks : (Dict.keys st).Nodup) {imp : Option (List String)}
    {d : Dict String (Dict String (List (List Int)))} (h : jd td st imp = .ok d) (s : String) :
    (s ∉ chosen st imp → Dict.get? d s = none) ∧
    (∀ bs, (s, bs) ∈ st → s ∈ chosen st imp →
      ∃ g, Dict.get? d s = some g ∧ JdInv td s (trainsAt td false bs) g) := by
  unfold jd at h
  simp only at h
  rw [important_fst] at h
  have e : (importantTrainsAndStations td st imp false).2 =
    getTrainsAtStation td st false := by cases imp <;> rfl
  rw [e] at h
  obtain ⟨h1, h2⟩ := station_loop (g := fun s => do
    let js ← Dict.at! (getTrainsAtStation td st false) s
    loop js (jdStep td s) []) (fun d s _ => by
      cases Dict.at! (getTrainsAtStation td st false) s with
      | error e => rfl
      | ok js => rfl) h
  refine ⟨h1 s, ?_⟩
  intro bs hs hc
  obtain ⟨v, hv, hg⟩ := h2 s hc
  obtain ⟨js, hjs, hv⟩ := bind_ok hv
  rw [Dict.at!_ok, get?_trainsAt hks hs] at hjs
  cases hjs
  have hval : ∀ j ∈ trainsAt td false bs, ∃ e, Dict.get? td j = some e := by
    intro j hj
    obtain ⟨tt, ⟨info, ht⟩, _⟩ := (mem_trainsAt hkt).1 hj
    exact ⟨_, ht⟩
  obtain ⟨g, h3, inv⟩ := jd_groups (s := s) (trainsAt_nodup hkt false bs) hval
  change loop (trainsAt td false bs) (jdStep td s) [] = .ok v at hv
  rw [h3] at hv
  cases hv
  exact ⟨_, hg, inv⟩

/-- C29, full statement: every train running from `s` to `s'` is in exactly one group and nothing
else is in a group; trains of a group run over the same blocks. -/
def C29_statement (td : Trains) (s s' : String) (gs : List (List Int)) : Prop :=
  (∀ t, t ∈ flatten gs ↔ ∃ blocks, Runs td t s s' blocks) ∧ (flatten gs).Nodup ∧
  (∀ g ∈ gs, ∀ t ∈ g, ∀ t' ∈ g, ∀ b b', Runs td t s s' b → Runs td t' s s' b' → b = b')

theorem runs_calls {td : Trains} {st : Stations} (htag : Tagged st td) {s s' : String} {t : Int}
    {blocks : List String} (h : Runs td t s s' blocks) : ∃ tt, TableOf td t tt ∧ CallsAt st tt s := by
  obtain ⟨tt, mid, ht, hc, _⟩ := h
  obtain ⟨info, hm⟩ := ht.mem
  obtain ⟨r, hr, hrs⟩ := (consecutive_serves hc).1
  exact ⟨tt, ht, r, hr, (htag _ hm r hr s).1 hrs⟩

/-- C29, what holds always: the trains in the groups are exactly those running from `s` to `s'`;
there are no empty groups; the blocks of every train of a group are among those of the first one;
two trains running over the same blocks are together in some group; no group has a train twice.
Missing: exactly one group, equal blocks; both are false in general. -/
theorem C29_cover_partial (td : Trains) (st : Stations) (hkt : (Dict.keys td).Nodup)
    (hks : (Dict.keys st).Nodup) (htag : Tagged st td) (ho : ∀ e ∈ td, OnceEach e.2.2)
    (imp : Option (List String)) (d : Dict String (Dict String (List (List Int))))
    (h : jd td st imp = .ok d) (s : String) (hst : s ∈ Dict.keys st) (hs : s ∈ chosen st imp) :
    ∃ g, Dict.get? d s = some g ∧ ∀ s',
      (Dict.get? g s' = none ↔ ¬ ∃ t blocks, Runs td t s s' blocks) ∧
      ∀ gs, Dict.get? g s' = some gs →
        (∀ t, t ∈ flatten gs ↔ ∃ blocks, Runs td t s s' blocks) ∧ (∀ x ∈ gs, x ≠ []) ∧
        (∀ h rest, h :: rest ∈ gs → ∀ t ∈ rest, ∀ bh bt, Runs td h s s' bh → Runs td t s s' bt →
          ∀ b ∈ bt, b ∈ bh) ∧
        (∀ t t' b, Runs td t s s' b → Runs td t' s s' b → ∃ x ∈ gs, t ∈ x ∧ t' ∈ x) ∧
        (∀ x ∈ gs, x.Nodup) := by
  obtain ⟨⟨s0, bs⟩, hm, rfl⟩ := List.mem_map.1 hst
  obtain ⟨g, hg, inv⟩ := (jd_station hkt hks h s0).2 bs hm hs
  have hmem : ∀ s' t, (t ∈ trainsAt td false bs ∧ nextOf td s0 t = some s') ↔
      ∃ blocks, Runs td t s0 s' blocks := by
    intro s' t
    rw [nextOf_iff ho]
    constructor
    · exact fun h => h.2
    · rintro ⟨blocks, hr⟩
      obtain ⟨tt, ht, hc⟩ := runs_calls htag hr
      exact ⟨(mem_trainsAt hkt).2 ⟨tt, ht, isAtStation_false.2 ((calls_iff hks hm tt).1 hc)⟩,
        blocks, hr⟩
  refine ⟨g, hg, fun s' => ⟨?_, ?_⟩⟩
  · constructor
    · rintro hn ⟨t, hr⟩
      obtain ⟨gs, hgs, _⟩ := (inv.mem s' t).2 ((hmem s' t).2 hr)
      rw [hn] at hgs; cases hgs
    · intro hn
      cases hgs : Dict.get? g s' with
      | none => rfl
      | some gs =>
        exfalso
        obtain ⟨x, l, rfl⟩ := List.exists_cons_of_ne_nil (inv.full s' gs hgs)
        obtain ⟨t, l', rfl⟩ := List.exists_cons_of_ne_nil (inv.ne s' _ hgs x List.mem_cons_self)
        obtain ⟨b, hb⟩ := (hmem s' t).1 ((inv.mem s' t).1 ⟨_, hgs, by simp [flatten]⟩)
        exact hn ⟨t, b, hb⟩
  · intro gs hgs
    have hin : ∀ t, t ∈ flatten gs ↔ ∃ blocks, Runs td t s0 s' blocks := by
      intro t
      rw [← hmem, ← inv.mem]
      constructor
      · intro ht; exact ⟨gs, hgs, ht⟩
      · rintro ⟨gs', hgs', ht⟩
        rw [hgs] at hgs'; cases hgs'; exact ht
    refine ⟨hin, inv.ne s' gs hgs, ?_, ?_, ?_⟩
    · intro h rest hin t ht bh bt hbh hbt
      have := inv.sub s' gs hgs h rest hin t ht
      rw [betweenOf_eq ho hbh, betweenOf_eq ho hbt] at this
      exact this
    · intro t t' b hb hb'
      exact inv.together s' gs hgs t ((hin t).2 ⟨b, hb⟩) t' ((hin t').2 ⟨b, hb'⟩)
        (by rw [betweenOf_eq ho hb, betweenOf_eq ho hb'])
    · intro x hx
      exact (trainsAt_nodup hkt false bs).sublist (inv.order s' gs hgs x hx)

/-- C29 for lines on which the blocks of no train are contained in those of another one. Missing:
the other cases, for which it is false. Also two trains with equal blocks are in the same group. -/
theorem C29_groups_partial (td : Trains) (st : Stations) (hkt : (Dict.keys td).Nodup)
    (hks : (Dict.keys st).Nodup) (htag : Tagged st td) (ho : ∀ e ∈ td, OnceEach e.2.2)
    (imp : Option (List String)) (d : Dict String (Dict String (List (List Int))))
    (h : jd td st imp = .ok d) (s s' : String) (hst : s ∈ Dict.keys st) (hs : s ∈ chosen st imp)
    (hanti : ∀ t t' b b', Runs td t s s' b → Runs td t' s s' b' → (∀ x ∈ b, x ∈ b') → b = b')
    (g : Dict String (List (List Int))) (hg : Dict.get? d s = some g) (gs : List (List Int))
    (hgs : Dict.get? g s' = some gs) :
    C29_statement td s s' gs ∧
    (∀ t t' b, Runs td t s s' b → Runs td t' s s' b → ∃ x ∈ gs, t ∈ x ∧ t' ∈ x) := by
  obtain ⟨g', hg', hall⟩ := C29_cover_partial td st hkt hks htag ho imp d h s hst hs
  rw [hg] at hg'; cases hg'
  obtain ⟨hmem, _, _⟩ := (hall s').2 gs hgs
  obtain ⟨⟨s0, bs⟩, hm, rfl⟩ := List.mem_map.1 hst
  obtain ⟨g', hg', inv⟩ := (jd_station hkt hks h s0).2 bs hm hs
  simp only at hg
  rw [hg] at hg'; cases hg'
  have hno : NoContained td s0 s' := by
    intro t t' ht ht' hsub
    obtain ⟨b, hb⟩ := (nextOf_iff ho).1 ht
    obtain ⟨b', hb'⟩ := (nextOf_iff ho).1 ht'
    rw [betweenOf_eq ho hb, betweenOf_eq ho hb'] at hsub ⊢
    exact hanti t t' b b' hb hb' hsub
  refine ⟨⟨hmem, inv.once s' gs hgs hno, ?_⟩, ?_⟩
  · intro x hx t ht t' ht' b b' hb hb'
    have := (inv.same s' gs hgs hno x hx x hx t ht t' ht').2 rfl
    rw [betweenOf_eq ho hb, betweenOf_eq ho hb'] at this
    exact this
  · intro t t' b hb hb'
    obtain ⟨x, hx, htx⟩ := List.mem_flatMap.1 ((hmem t).2 ⟨b, hb⟩)
    obtain ⟨y, hy, hty⟩ := List.mem_flatMap.1 ((hmem t').2 ⟨b, hb'⟩)
    have : x = y := (inv.same s' gs hgs hno x hx y hy t htx t' hty).1
      (by rw [betweenOf_eq ho hb, betweenOf_eq ho hb'])
    subst this
    exact ⟨x, hx, htx, hty⟩

/-- C29: the groups are found if all stations asked for are known. -/
theorem C29_found (td : Trains) (st : Stations) (hkt : (Dict.keys td).Nodup)
    (hks : (Dict.keys st).Nodup) (imp : Option (List String))
    (himp : ∀ s ∈ chosen st imp, s ∈ Dict.keys st) : ∃ d, jd td st imp = .ok d := by
  unfold jd
  simp only
  rw [important_fst]
  have e : (importantTrainsAndStations td st imp false).2 =
    getTrainsAtStation td st false := by cases imp <;> rfl
  rw [e]
  refine station_loop_ok (g := fun s => do
    let js ← Dict.at! (getTrainsAtStation td st false) s
    loop js (jdStep td s) []) (fun d s _ => by
      cases Dict.at! (getTrainsAtStation td st false) s with
      | error e => rfl
      | ok js => rfl) ?_ _
  intro s hs
  obtain ⟨⟨s0, bs⟩, hm, rfl⟩ := List.mem_map.1 (himp s hs)
  have hval : ∀ j ∈ trainsAt td false bs, ∃ e, Dict.get? td j = some e := by
    intro j hj
    obtain ⟨tt, ⟨info, ht⟩, _⟩ := (mem_trainsAt hkt).1 hj
    exact ⟨_, ht⟩
  obtain ⟨g, h3, _⟩ := jd_groups (s := s0) (trainsAt_nodup hkt false bs) hval
  refine ⟨g, ?_⟩
  rw [show Dict.at! (getTrainsAtStation td st false) s0 = .ok (trainsAt td false bs) from
    Dict.at!_ok.2 (get?_trainsAt hks hm)]
  exact h3

/-- trains on a line with two tracks, two of them on the same one -/
def lineTrains : Trains :=
  [(1, ([], [{ path := "a", station := some "A" }, { path := "l1" }, { path := "l2" },
     { path := "b", station := some "B" }])),
   (2, ([], [{ path := "a", station := some "A" }, { path := "m1" }, { path := "l2" },
     { path := "b", station := some "B" }])),
   (3, ([], [{ path := "a", station := some "A" }, { path := "l1" }, { path := "l2" },
     { path := "b", station := some "B" }]))]
/-- train 2 without its own block: its blocks are contained in those of train 1 -/
def shortTrains : Trains :=
  [(1, ([], [{ path := "a", station := some "A" }, { path := "l1" }, { path := "l2" },
     { path := "b", station := some "B" }])),
   (2, ([], [{ path := "a", station := some "A" }, { path := "l2" },
     { path := "b", station := some "B" }]))]
/-- the stations -/
def lineStations : Stations := [("A", ["a"]), ("B", ["b"])]

theorem lineStations_disjoint : DisjointStations lineStations := by
  refine ⟨by decide +kernel, ?_⟩
  rintro b s s' ⟨bs, hm, hb⟩ ⟨bs', hm', hb'⟩
  simp only [lineStations, List.mem_cons, Prod.mk.injEq, List.not_mem_nil, or_false] at hm hm'
  rcases hm with ⟨rfl, rfl⟩ | ⟨rfl, rfl⟩ <;> rcases hm' with ⟨rfl, rfl⟩ | ⟨rfl, rfl⟩ <;>
    simp at hb hb' <;> first | rfl | (subst hb; simp at hb')

theorem lineTagged {td : Trains}
    (h : ∀ e ∈ td, ∀ r ∈ e.2.2, r.station = getBlockStation r.path lineStations) :
    Tagged lineStations td := by
  intro e he r hr s
  rw [h e he r hr]
  exact getBlockStation_iff lineStations_disjoint

set_option synthInstance.maxSize 1000 in
/-- the hypotheses of `C29_cover_partial`, and what is computed -/
example : (Dict.keys lineTrains).Nodup ∧ (Dict.keys lineStations).Nodup ∧
    Tagged lineStations lineTrains ∧ (∀ e ∈ lineTrains, OnceEach e.2.2) ∧
    jd lineTrains lineStations none = .ok [("A", [("B", [[1, 3], [2]])]), ("B", [])] :=
  ⟨by decide +kernel, by decide +kernel, lineTagged (by decide +kernel),
    by unfold OnceEach; decide +kernel, by decide +kernel⟩

theorem anti_of_check {td : Trains} (ho : ∀ e ∈ td, OnceEach e.2.2) {s s' : String}
    (h : ∀ t ∈ Dict.keys td, ∀ t' ∈ Dict.keys td, nextOf td s t = some s' →
      nextOf td s t' = some s' → (∀ b ∈ betweenOf td s s' t, b ∈ betweenOf td s s' t') →
      betweenOf td s s' t = betweenOf td s s' t') :
    ∀ t t' b b', Runs td t s s' b → Runs td t' s s' b' → (∀ x ∈ b, x ∈ b') → b = b' := by
  intro t t' b b' hb hb' hsub
  have hk : ∀ t b, Runs td t s s' b → t ∈ Dict.keys td := by
    rintro t b ⟨tt, _, ht, _⟩
    obtain ⟨info, hm⟩ := ht.mem
    exact List.mem_map.2 ⟨_, hm, rfl⟩
  have := h t (hk t b hb) t' (hk t' b' hb') ((nextOf_iff ho).2 ⟨b, hb⟩)
    ((nextOf_iff ho).2 ⟨b', hb'⟩)
  rw [betweenOf_eq ho hb, betweenOf_eq ho hb'] at this
  exact this hsub

/-- the further hypothesis of `C29_groups_partial` -/
example : ∀ t t' b b', Runs lineTrains t "A" "B" b → Runs lineTrains t' "A" "B" b' →
    (∀ x ∈ b, x ∈ b') → b = b' :=
  anti_of_check (by unfold OnceEach; decide +kernel) (by decide +kernel)

set_option synthInstance.maxSize 1000 in
/-- C29 is false of the code: the blocks of train 2 are contained in those of train 1, so it is put
in a group with it. -/
theorem C29_false : ∃ gs, jd shortTrains lineStations none = .ok [("A", [("B", gs)]), ("B", [])] ∧
    Tagged lineStations shortTrains ∧ (∀ e ∈ shortTrains, OnceEach e.2.2) ∧
    ¬ C29_statement shortTrains "A" "B" gs := by
  refine ⟨[[1, 2]], by decide +kernel, lineTagged (by decide +kernel),
    by unfold OnceEach; decide +kernel, ?_⟩
  rintro ⟨_, _, h⟩
  have := h [1, 2] (by simp) 1 (by simp) 2 (by simp) ["l1", "l2"] ["l2"]
    ⟨_, [{ path := "l1" }, { path := "l2" }], ⟨_, rfl⟩,
      ⟨[], { path := "a", station := some "A" }, { path := "b", station := some "B" }, [], rfl, rfl,
        rfl, by simp⟩, rfl⟩
    ⟨_, [{ path := "l2" }], ⟨_, rfl⟩,
      ⟨[], { path := "a", station := some "A" }, { path := "b", station := some "B" }, [], rfl, rfl,
        rfl, by simp⟩, rfl⟩
  revert this; decide

set_option synthInstance.maxSize 1000 in
/-- C29 is false of the code in another way: a train whose blocks are contained in those of two
groups is put in both. -/
theorem C29_twice : ∃ td : Trains, Tagged lineStations td ∧ (∀ e ∈ td, OnceEach e.2.2) ∧
    ∃ gs, jd td lineStations none = .ok [("A", [("B", gs)]), ("B", [])] ∧ ¬ (flatten gs).Nodup := by
  refine ⟨[(1, ([], [{ path := "a", station := some "A" }, { path := "l1" }, { path := "l2" },
     { path := "b", station := some "B" }])),
   (2, ([], [{ path := "a", station := some "A" }, { path := "m1" }, { path := "l2" },
     { path := "b", station := some "B" }])),
   (3, ([], [{ path := "a", station := some "A" }, { path := "l2" },
     { path := "b", station := some "B" }]))], lineTagged (by decide +kernel),
    by unfold OnceEach; decide +kernel, [[1, 3], [2, 3]], by decide +kernel, by decide +kernel⟩

end Verif
