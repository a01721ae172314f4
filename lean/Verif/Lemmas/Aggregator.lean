import Verif.Aggregator
import Verif.Spec.Aggregator

/-!
# The aggregator: invariants of its loops
-/

set_option linter.unusedSimpArgs false

namespace Reqtrace

open Spec

section maps
set_option linter.unusedSectionVars false
variable {κ ν : Type} [Ord κ] [Std.TransOrd κ] [Std.LawfulEqOrd κ] [DecidableEq κ]

theorem get_foldl_insert (l : List (κ × ν)) (m : BMap κ ν) (k : κ) :
    (l.foldl (fun m e => m.insert e.1 e.2) m).get k =
      ((l.reverse.find? (fun e => e.1 == k)).map (·.2)).or (m.get k) := by
  induction l generalizing m with
  | nil => simp
  | cons e t ih =>
    rw [List.foldl_cons, ih, List.reverse_cons, List.find?_append, BMap.get_insert]
    cases t.reverse.find? (fun e => e.1 == k) with
    | some x => simp
    | none =>
      by_cases h : k = e.1
      · subst h; simp
      · have : (e.1 == k) = false := by simpa using Ne.symm h
        simp [h, this]

/-- Collecting into a map: the last pair with the key wins. -/
theorem get_ofList (l : List (κ × ν)) (k : κ) :
    (BMap.ofList l).get k = (l.reverse.find? (fun e => e.1 == k)).map (·.2) := by
  unfold BMap.ofList
  rw [get_foldl_insert]; simp

theorem get_ofList_isSome (l : List (κ × ν)) (k : κ) :
    ((BMap.ofList l).get k).isSome ↔ ∃ v, (k, v) ∈ l := by
  rw [get_ofList, Option.isSome_map, List.find?_isSome]
  constructor
  · rintro ⟨⟨k', v⟩, h1, h2⟩
    have : k' = k := by simpa using h2
    subst this
    exact ⟨v, by simpa using h1⟩
  · rintro ⟨v, h⟩
    exact ⟨(k, v), by simpa using h, by simp⟩

theorem get_ofList_mem {l : List (κ × ν)} {k : κ} {v : ν} (h : (BMap.ofList l).get k = some v) :
    (k, v) ∈ l := by
  rw [get_ofList, Option.map_eq_some_iff] at h
  obtain ⟨⟨k', v'⟩, h1, rfl⟩ := h
  have h2 := List.find?_some h1
  have : k' = k := by simpa using h2
  subst this
  simpa using List.mem_of_find?_eq_some h1

theorem getMut_ok {p : Panic} {m : BMap κ ν} {k : κ} {f : ν → PanicM ν} {v v' : ν}
    (h : m.get k = some v) (hf : f v = .ok v') : getMut p m k f = .ok (m.insert k v') := by
  unfold getMut
  simp [h, orPanic, bind, Except.bind, hf, pure, Except.pure]

end maps

/-- The requirement ids of an artefact. -/
def keysOf (tg : TracedGraph) (a : ArtefactId) : List RequirementId :=
  match tg.artefacts.get a with
  | none => []
  | some art => art.requirements.keys

theorem mem_keysOf (tg : TracedGraph) (a : ArtefactId) (id : RequirementId) :
    id ∈ keysOf tg a ↔ Has tg a id := by
  unfold keysOf Has
  cases h : tg.artefacts.get a with
  | none => simp
  | some art => simp [BMap.mem_keys_iff]

/-- Which artefact and requirement the aggregator keeps for an id. -/
def aggReq (tg : TracedGraph) (id : RequirementId) : Option (Artefact × Requirement) :=
  ((initRequirements tg).get id).map (fun rt => (rt.artefact, rt.requirement))

theorem aggReq_isSome (tg : TracedGraph) (id : RequirementId) :
    (aggReq tg id).isSome ↔ ∃ a, Has tg a id := by
  unfold aggReq initRequirements
  rw [Option.isSome_map, get_ofList_isSome]
  simp only [List.mem_flatMap, List.mem_map, Has, BMap.mem_values_iff]
  constructor
  · rintro ⟨v, art, ⟨a, ha⟩, ⟨⟨k, r⟩, hr, he⟩⟩
    cases he
    exact ⟨a, art, r, ha, (BMap.get_eq_some_iff _ _ _).2 hr⟩
  · rintro ⟨a, art, r, ha, hr⟩
    exact ⟨_, art, ⟨a, ha⟩, ⟨(id, r), (BMap.get_eq_some_iff _ _ _).1 hr, rfl⟩⟩

theorem aggReq_spec {tg : TracedGraph} {id : RequirementId} {art : Artefact} {r : Requirement}
    (h : aggReq tg id = some (art, r)) :
    ∃ a, tg.artefacts.get a = some art ∧ art.requirements.get id = some r := by
  unfold aggReq at h
  rw [Option.map_eq_some_iff] at h
  obtain ⟨rt, h1, h2⟩ := h
  have := get_ofList_mem h1
  simp only [List.mem_flatMap, List.mem_map, BMap.mem_values_iff] at this
  obtain ⟨art', ⟨a, ha⟩, ⟨⟨k, r'⟩, hr, he⟩⟩ := this
  cases he
  cases h2
  exact ⟨a, ha, (BMap.get_eq_some_iff _ _ _).2 hr⟩

/-- A table of cross references. -/
abbrev Refs := RequirementId → Relation → Option (List (Requirement × Location))

/-- The requirement map holds the requirements of `aggReq` with these cross references. -/
def Shape (tg : TracedGraph) (D C : Refs) (reqs : BMap RequirementId RequirementTrace) : Prop :=
  ∀ id, (reqs.get id).map (fun rt => (rt.artefact, rt.requirement)) = aggReq tg id ∧
    ∀ rt, reqs.get id = some rt → ∀ rel, rt.depends.get rel = D id rel ∧ rt.covers.get rel = C id rel

theorem shape_init (tg : TracedGraph) :
    Shape tg (fun _ _ => none) (fun _ _ => none) (initRequirements tg) := by
  intro id
  refine ⟨rfl, ?_⟩
  intro rt h rel
  have := get_ofList_mem h
  simp only [List.mem_flatMap, List.mem_map] at this
  obtain ⟨art, _, e, _, he⟩ := this
  cases he
  exact ⟨rfl, rfl⟩

theorem Shape.get {tg : TracedGraph} {D C : Refs} {reqs : BMap RequirementId RequirementTrace}
    (h : Shape tg D C reqs) {id : RequirementId} {p : Artefact × Requirement}
    (hp : aggReq tg id = some p) :
    ∃ rt, reqs.get id = some rt ∧ rt.artefact = p.1 ∧ rt.requirement = p.2 := by
  have := (h id).1
  rw [hp, Option.map_eq_some_iff] at this
  obtain ⟨rt, h1, h2⟩ := this
  exact ⟨rt, h1, congrArg Prod.fst h2, congrArg Prod.snd h2⟩

/-- Updating the cross references of one requirement. -/
theorem Shape.insert {tg : TracedGraph} {D C D' C' : Refs}
    {reqs : BMap RequirementId RequirementTrace} (h : Shape tg D C reqs) {id : RequirementId}
    {rt rt' : RequirementTrace} (hg : reqs.get id = some rt) (ha : rt'.artefact = rt.artefact)
    (hr : rt'.requirement = rt.requirement)
    (hD : ∀ rel, rt'.depends.get rel = D' id rel) (hC : ∀ rel, rt'.covers.get rel = C' id rel)
    (hD' : ∀ id', id' ≠ id → D' id' = D id') (hC' : ∀ id', id' ≠ id → C' id' = C id') :
    Shape tg D' C' (reqs.insert id rt') := by
  intro id'
  rw [BMap.get_insert]
  by_cases he : id' = id
  · subst he
    simp only [if_true, Option.map_some, Option.some.injEq]
    refine ⟨?_, ?_⟩
    · rw [ha, hr, ← (h id').1, hg]; rfl
    · rintro _ rfl rel; exact ⟨hD rel, hC rel⟩
  · simp only [he, if_false]
    rw [hD' id' he, hC' id' he]
    exact h id'

theorem Shape.congr {tg : TracedGraph} {D C D' C' : Refs}
    {reqs : BMap RequirementId RequirementTrace} (h : Shape tg D C reqs)
    (hD : ∀ id rel, D id rel = D' id rel) (hC : ∀ id rel, C id rel = C' id rel) :
    Shape tg D' C' reqs := by
  have : D = D' := funext fun id => funext fun rel => hD id rel
  have : C = C' := funext fun id => funext fun rel => hC id rel
  subst_vars; exact h

/-- The table after inserting an empty list for `rel` at all `keys`. -/
def putEmpty (rel : Relation) (keys : List RequirementId) (D : Refs) : Refs :=
  fun id rel' => if rel' = rel ∧ id ∈ keys then some [] else D id rel'

theorem putEmpty_cons (rel : Relation) (k : RequirementId) (ks : List RequirementId) (D : Refs) :
    putEmpty rel ks (putEmpty rel [k] D) = putEmpty rel (k :: ks) D := by
  funext id rel'
  unfold putEmpty
  by_cases h1 : rel' = rel <;> by_cases h2 : id ∈ ks <;> by_cases h3 : id = k <;> simp [h1, h2, h3]

theorem insertEmpty_depends {tg : TracedGraph} (rel : Relation) (keys : List RequirementId)
    (D C : Refs) (reqs : BMap RequirementId RequirementTrace) (h : Shape tg D C reqs)
    (hk : ∀ id ∈ keys, (aggReq tg id).isSome) :
    ∃ reqs', insertEmpty (fun r => { r with depends := r.depends.insert rel [] }) reqs keys =
      .ok reqs' ∧ Shape tg (putEmpty rel keys D) C reqs' := by
  induction keys generalizing reqs D with
  | nil => exact ⟨reqs, rfl, h.congr (fun _ _ => by simp [putEmpty]) (fun _ _ => rfl)⟩
  | cons k ks ih =>
    obtain ⟨p, hp⟩ := Option.isSome_iff_exists.1 (hk k (by simp))
    obtain ⟨rt, hg, _, _⟩ := h.get hp
    have hstep := getMut_ok (p := .aggRequirement) (f := fun r : RequirementTrace =>
      pure { r with depends := r.depends.insert rel [] }) hg rfl
    have hs : Shape tg (putEmpty rel [k] D) C
        (reqs.insert k { rt with depends := rt.depends.insert rel [] }) := by
      refine h.insert hg rfl rfl ?_ ?_ ?_ (fun _ _ => rfl)
      · intro rel'
        rw [BMap.get_insert]
        have := ((h k).2 rt hg rel').1
        by_cases hr : rel' = rel <;> simp [putEmpty, hr, this]
      · intro rel'; exact ((h k).2 rt hg rel').2
      · intro id' hne; funext rel'; simp [putEmpty, hne]
    obtain ⟨reqs', h1, h2⟩ := ih _ _ hs (fun id hid => hk id (by simp [hid]))
    refine ⟨reqs', ?_, by rw [← putEmpty_cons]; exact h2⟩
    unfold insertEmpty at h1 ⊢
    rw [List.foldlM_cons, hstep]
    exact h1

theorem insertEmpty_covers {tg : TracedGraph} (rel : Relation) (keys : List RequirementId)
    (D C : Refs) (reqs : BMap RequirementId RequirementTrace) (h : Shape tg D C reqs)
    (hk : ∀ id ∈ keys, (aggReq tg id).isSome) :
    ∃ reqs', insertEmpty (fun r => { r with covers := r.covers.insert rel [] }) reqs keys =
      .ok reqs' ∧ Shape tg D (putEmpty rel keys C) reqs' := by
  induction keys generalizing reqs C with
  | nil => exact ⟨reqs, rfl, h.congr (fun _ _ => rfl) (fun _ _ => by simp [putEmpty])⟩
  | cons k ks ih =>
    obtain ⟨p, hp⟩ := Option.isSome_iff_exists.1 (hk k (by simp))
    obtain ⟨rt, hg, _, _⟩ := h.get hp
    have hstep := getMut_ok (p := .aggRequirement) (f := fun r : RequirementTrace =>
      pure { r with covers := r.covers.insert rel [] }) hg rfl
    have hs : Shape tg D (putEmpty rel [k] C)
        (reqs.insert k { rt with covers := rt.covers.insert rel [] }) := by
      refine h.insert hg rfl rfl ?_ ?_ (fun _ _ => rfl) ?_
      · intro rel'; exact ((h k).2 rt hg rel').1
      · intro rel'
        rw [BMap.get_insert]
        have := ((h k).2 rt hg rel').2
        by_cases hr : rel' = rel <;> simp [putEmpty, hr, this]
      · intro id' hne; funext rel'; simp [putEmpty, hne]
    obtain ⟨reqs', h1, h2⟩ := ih _ _ hs (fun id hid => hk id (by simp [hid]))
    refine ⟨reqs', ?_, by rw [← putEmpty_cons]; exact h2⟩
    unfold insertEmpty at h1 ⊢
    rw [List.foldlM_cons, hstep]
    exact h1

/-- The artefact map holds the artefacts of the graph with these relation lists. -/
def ArtShape (tg : TracedGraph) (U L : ArtefactId → List TracedRelation)
    (arts : BMap ArtefactId ArtefactRelations) : Prop :=
  ∀ a, arts.get a = (tg.artefacts.get a).map (fun art => ⟨U a, L a, art⟩)

theorem artShape_init (tg : TracedGraph) :
    ArtShape tg (fun _ => []) (fun _ => []) (initArtefacts tg) := by
  intro a
  cases hi : (initArtefacts tg).get a with
  | none =>
    cases h : tg.artefacts.get a with
    | none => rfl
    | some art =>
      have : ((initArtefacts tg).get a).isSome := by
        unfold initArtefacts
        rw [get_ofList_isSome]
        exact ⟨_, List.mem_map.2 ⟨(a, art), (BMap.get_eq_some_iff _ _ _).1 h, rfl⟩⟩
      rw [hi] at this; cases this
  | some v =>
    have := get_ofList_mem hi
    rw [List.mem_map] at this
    obtain ⟨⟨k, art⟩, h1, h2⟩ := this
    cases h2
    rw [(BMap.get_eq_some_iff _ _ _).2 h1]; rfl

theorem ArtShape.insert {tg : TracedGraph} {U L U' L' : ArtefactId → List TracedRelation}
    {arts : BMap ArtefactId ArtefactRelations} (h : ArtShape tg U L arts) {a : ArtefactId}
    {art : Artefact} (ha : tg.artefacts.get a = some art)
    (hU : ∀ b, b ≠ a → U' b = U b) (hL : ∀ b, b ≠ a → L' b = L b) :
    ArtShape tg U' L' (arts.insert a ⟨U' a, L' a, art⟩) := by
  intro b
  rw [BMap.get_insert]
  by_cases hb : b = a
  · subst hb; simp [ha]
  · simp only [hb, if_false]
    rw [h b, hU b hb, hL b hb]

/-- The table after the lower artefacts `ls` of `rel`. -/
def putLower (tg : TracedGraph) (rel : Relation) (ls : List ArtefactId) (C : Refs) : Refs :=
  fun id rel' => if rel' = rel ∧ ∃ a ∈ ls, id ∈ keysOf tg a then some [] else C id rel'

theorem aggLower_foldl {tg : TracedGraph} (rel : TracedRelation) (ls : List ArtefactId)
    (D C : Refs) (U L : ArtefactId → List TracedRelation) (s : AggState)
    (hs : Shape tg D C s.2) (ha : ArtShape tg U L s.1)
    (hex : ∀ a ∈ ls, (tg.artefacts.get a).isSome) :
    ∃ s', ls.foldlM (aggLower tg rel) s = .ok s' ∧
      Shape tg D (putLower tg rel.relation ls C) s'.2 ∧
      ArtShape tg (fun a => U a ++ (ls.filter (fun b => b = a)).map (fun _ => rel)) L s'.1 := by
  induction ls generalizing C U s with
  | nil =>
    refine ⟨s, rfl, hs.congr (fun _ _ => rfl) (fun _ _ => by simp [putLower]), ?_⟩
    simpa using ha
  | cons a ls ih =>
    obtain ⟨art, hart⟩ := Option.isSome_iff_exists.1 (hex a (by simp))
    have hga : s.1.get a = some ⟨U a, L a, art⟩ := by rw [ha a, hart]; rfl
    have h1 := getMut_ok (p := .aggArtefact) (f := fun ar : ArtefactRelations =>
      pure { ar with upper := ar.upper ++ [rel] }) hga rfl
    have hkeys : keysOf tg a = art.requirements.keys := by unfold keysOf; rw [hart]
    obtain ⟨reqs', h2, h3⟩ := insertEmpty_covers rel.relation art.requirements.keys D C s.2 hs (by
      intro id hid
      rw [aggReq_isSome]
      exact ⟨a, (mem_keysOf tg a id).1 (hkeys ▸ hid)⟩)
    have hstep : aggLower tg rel s a = .ok (s.1.insert a ⟨U a ++ [rel], L a, art⟩, reqs') := by
      unfold aggLower
      rw [h1]
      simp only [bind, Except.bind, hart, orPanic]
      rw [h2]; rfl
    have h4 : ArtShape tg (fun b => U b ++ ([a].filter (fun c => c = b)).map (fun _ => rel)) L
        (s.1.insert a ⟨U a ++ [rel], L a, art⟩) := by
      have := ha.insert (U' := fun b => U b ++ ([a].filter (fun c => c = b)).map (fun _ => rel))
        (L' := L) hart (by intro b hb; simp [Ne.symm hb]) (fun _ _ => rfl)
      simpa using this
    obtain ⟨s', h5, h6, h7⟩ := ih _ _ (s.1.insert a ⟨U a ++ [rel], L a, art⟩, reqs') h3 h4
      (fun b hb => hex b (by simp [hb]))
    refine ⟨s', ?_, ?_, ?_⟩
    · rw [List.foldlM_cons, hstep]; exact h5
    · refine h6.congr (fun _ _ => rfl) ?_
      intro id rel'
      unfold putLower putEmpty
      rw [← hkeys]
      by_cases hr : rel' = rel.relation
      · by_cases h8 : id ∈ keysOf tg a
        · simp [hr, h8]
        · simp [hr, h8]
      · simp [hr]
    · intro b
      rw [h7 b]
      congr 2
      funext art'
      congr 1
      by_cases hb : a = b
      · subst hb; simp
      · simp [hb]

/-- The tables after the first loop. -/
def depends1 (tg : TracedGraph) (pre : List TracedRelation) : Refs :=
  fun id rel => if ∃ tr ∈ pre, tr.relation = rel ∧ id ∈ keysOf tg rel.upper then some [] else none

def covers1 (tg : TracedGraph) (pre : List TracedRelation) : Refs :=
  fun id rel => if ∃ tr ∈ pre, tr.relation = rel ∧ ∃ a ∈ rel.lower, id ∈ keysOf tg a
    then some [] else none

theorem aggRelations_ok {tg : TracedGraph} (hc : Closed tg) :
    ∃ s, tg.tracedRelations.foldlM (aggRelation tg) (initArtefacts tg, initRequirements tg) = .ok s ∧
      Shape tg (depends1 tg tg.tracedRelations) (covers1 tg tg.tracedRelations) s.2 ∧
      ArtShape tg
        (fun a => tg.tracedRelations.flatMap (fun tr =>
          (tr.relation.lower.filter (fun b => b = a)).map (fun _ => tr)))
        (fun a => tg.tracedRelations.filter (fun tr => tr.relation.upper = a)) s.1 := by
  have aux : ∀ (post pre : List TracedRelation) (s : AggState),
      (∀ tr ∈ post, (tg.artefacts.get tr.relation.upper).isSome ∧
        ∀ a ∈ tr.relation.lower, (tg.artefacts.get a).isSome) →
      Shape tg (depends1 tg pre) (covers1 tg pre) s.2 →
      ArtShape tg
        (fun a => pre.flatMap (fun tr =>
          (tr.relation.lower.filter (fun b => b = a)).map (fun _ => tr)))
        (fun a => pre.filter (fun tr => tr.relation.upper = a)) s.1 →
      ∃ s', post.foldlM (aggRelation tg) s = .ok s' ∧
        Shape tg (depends1 tg (pre ++ post)) (covers1 tg (pre ++ post)) s'.2 ∧
        ArtShape tg
          (fun a => (pre ++ post).flatMap (fun tr =>
            (tr.relation.lower.filter (fun b => b = a)).map (fun _ => tr)))
          (fun a => (pre ++ post).filter (fun tr => tr.relation.upper = a)) s'.1 := by
    intro post
    induction post with
    | nil => intro pre s _ h1 h2; exact ⟨s, rfl, by simpa using h1, by simpa using h2⟩
    | cons tr post ih =>
      intro pre s hex hs ha
      obtain ⟨hu, hl⟩ := hex tr (by simp)
      obtain ⟨art, hart⟩ := Option.isSome_iff_exists.1 hu
      have hkeys : keysOf tg tr.relation.upper = art.requirements.keys := by
        unfold keysOf; rw [hart]
      have hga : s.1.get tr.relation.upper = some
          ⟨pre.flatMap (fun tr' => (tr'.relation.lower.filter
            (fun b => b = tr.relation.upper)).map (fun _ => tr')),
            pre.filter (fun tr' => tr'.relation.upper = tr.relation.upper), art⟩ := by
        rw [ha, hart]; rfl
      have h1 := getMut_ok (p := .aggArtefact) (f := fun ar : ArtefactRelations =>
        pure { ar with lower := ar.lower ++ [tr] }) hga rfl
      obtain ⟨reqs1, h2, h3⟩ := insertEmpty_depends tr.relation art.requirements.keys _ _ s.2 hs (by
        intro id hid
        rw [aggReq_isSome]
        exact ⟨_, (mem_keysOf tg _ id).1 (hkeys ▸ hid)⟩)
      have h4 := ha.insert (a := tr.relation.upper) (art := art)
        (U' := fun a => pre.flatMap (fun tr =>
          (tr.relation.lower.filter (fun b => b = a)).map (fun _ => tr)))
        (L' := fun a => pre.filter (fun tr => tr.relation.upper = a) ++
          [tr].filter (fun tr => tr.relation.upper = a)) hart (fun _ _ => rfl)
        (by intro b hb; simp [Ne.symm hb])
      simp only [List.filter_cons, decide_true, if_true, List.filter_nil] at h4
      obtain ⟨s2, h5, h6, h7⟩ := aggLower_foldl tr tr.relation.lower _ _ _ _
        (s.1.insert tr.relation.upper _, reqs1) h3 h4 hl
      have hstep : aggRelation tg s tr = .ok s2 := by
        unfold aggRelation
        rw [h1]
        simp only [bind, Except.bind, hart, orPanic]
        rw [h2]; exact h5
      obtain ⟨s3, h8, h9, h10⟩ := ih (pre ++ [tr]) s2 (fun t ht => hex t (by simp [ht])) (by
          refine h6.congr ?_ ?_
          · intro id rel
            unfold putEmpty depends1
            rw [← hkeys]
            by_cases hr : rel = tr.relation
            · subst hr
              by_cases hm : id ∈ keysOf tg tr.relation.upper
              · have : ∃ tr' ∈ pre ++ [tr], tr'.relation = tr.relation ∧
                    id ∈ keysOf tg tr.relation.upper := ⟨tr, by simp, rfl, hm⟩
                rw [if_pos ⟨rfl, hm⟩, if_pos this]
              · rw [if_neg (fun h => hm h.2), if_neg (fun ⟨_, _, _, h⟩ => hm h),
                  if_neg (fun ⟨_, _, _, h⟩ => hm h)]
            · rw [if_neg (fun h => hr h.1)]
              refine ite_congr (propext ?_) (fun _ => rfl) (fun _ => rfl)
              constructor
              · rintro ⟨tr', h1, h2⟩; exact ⟨tr', by simp [h1], h2⟩
              · rintro ⟨tr', q1, q2⟩
                rw [List.mem_append, List.mem_singleton] at q1
                rcases q1 with q1 | rfl
                · exact ⟨tr', q1, q2⟩
                · exact absurd q2.1.symm hr
          · intro id rel
            unfold putLower covers1
            by_cases hr : rel = tr.relation
            · subst hr
              by_cases hm : ∃ a ∈ tr.relation.lower, id ∈ keysOf tg a
              · have : ∃ tr' ∈ pre ++ [tr], tr'.relation = tr.relation ∧
                    ∃ a ∈ tr.relation.lower, id ∈ keysOf tg a := ⟨tr, by simp, rfl, hm⟩
                rw [if_pos ⟨rfl, hm⟩, if_pos this]
              · rw [if_neg (fun h => hm h.2), if_neg (fun ⟨_, _, _, h⟩ => hm h),
                  if_neg (fun ⟨_, _, _, h⟩ => hm h)]
            · rw [if_neg (fun h => hr h.1)]
              refine ite_congr (propext ?_) (fun _ => rfl) (fun _ => rfl)
              constructor
              · rintro ⟨tr', h1, h2⟩; exact ⟨tr', by simp [h1], h2⟩
              · rintro ⟨tr', q1, q2⟩
                rw [List.mem_append, List.mem_singleton] at q1
                rcases q1 with q1 | rfl
                · exact ⟨tr', q1, q2⟩
                · exact absurd q2.1.symm hr) (by
          intro b
          rw [h7 b]
          congr 2
          funext art'
          simp [List.filter_cons])
      refine ⟨s3, ?_, ?_, ?_⟩
      · rw [List.foldlM_cons, hstep]; exact h8
      · simpa using h9
      · simpa using h10
  obtain ⟨s, h1, h2, h3⟩ := aux tg.tracedRelations [] (initArtefacts tg, initRequirements tg)
    (fun tr htr => ⟨hc.upper tr htr, hc.lower tr htr⟩)
    ((shape_init tg).congr (fun _ _ => by simp [depends1]) (fun _ _ => by simp [covers1]))
    (by simpa using artShape_init tg)
  exact ⟨s, h1, by simpa using h2, by simpa using h3⟩

/-- Append to one list of a table. -/
def pushRef (id : RequirementId) (rel : Relation) (x : Requirement × Location) (D : Refs) : Refs :=
  fun id' rel' => if id' = id ∧ rel' = rel then (D id' rel').map (· ++ [x]) else D id' rel'

theorem aggCoverage_ok {tg : TracedGraph} {D C : Refs}
    {reqs : BMap RequirementId RequirementTrace} (h : Shape tg D C reqs) (rel : Relation)
    (cov : Coverage) {pu pl : Artefact × Requirement} (hu : aggReq tg cov.upper = some pu)
    (hl : aggReq tg cov.lower = some pl) (hD : (D cov.upper rel).isSome)
    (hC : (C cov.lower rel).isSome) :
    ∃ reqs', aggCoverage rel reqs cov = .ok reqs' ∧
      Shape tg (pushRef cov.upper rel (pl.2, cov.location) D)
        (pushRef cov.lower rel (pu.2, cov.location) C) reqs' := by
  obtain ⟨rtu, hgu, hau, hru⟩ := h.get hu
  obtain ⟨rtl, hgl, hal, hrl⟩ := h.get hl
  obtain ⟨du, hdu⟩ := Option.isSome_iff_exists.1 hD
  have hdu' : rtu.depends.get rel = some du := by rw [((h _).2 rtu hgu rel).1, hdu]
  have h1 := getMut_ok (p := .aggRelation)
    (f := fun l : List (Requirement × Location) => pure (l ++ [(rtl.requirement, cov.location)]))
    hdu' rfl
  have h2 := getMut_ok (p := .aggRequirement) (f := fun r : RequirementTrace => do
      let depends ← getMut .aggRelation r.depends rel
        (fun l => pure (l ++ [(rtl.requirement, cov.location)]))
      return { r with depends := depends }) hgu (by simp only [h1]; rfl)
  have hs1 : Shape tg (pushRef cov.upper rel (pl.2, cov.location) D) C
      (reqs.insert cov.upper { rtu with depends := (rtu.depends.insert rel
          (du ++ [(rtl.requirement, cov.location)])) }) := by
    refine h.insert hgu rfl rfl ?_ ?_ ?_ (fun _ _ => rfl)
    · intro rel'
      rw [BMap.get_insert]
      have := ((h _).2 rtu hgu rel').1
      by_cases hr : rel' = rel
      · subst hr; simp [pushRef, hdu, hrl]
      · simp [pushRef, hr, this]
    · intro rel'; exact ((h _).2 rtu hgu rel').2
    · intro id' hne; funext rel'; simp [pushRef, hne]
  obtain ⟨rtl', hgl', hal', hrl'⟩ := hs1.get hl
  obtain ⟨dl, hdl⟩ := Option.isSome_iff_exists.1 hC
  have hdl' : rtl'.covers.get rel = some dl := by rw [((hs1 _).2 rtl' hgl' rel).2, hdl]
  have h3 := getMut_ok (p := .aggRelation)
    (f := fun l : List (Requirement × Location) => pure (l ++ [(rtu.requirement, cov.location)]))
    hdl' rfl
  have h4 := getMut_ok (p := .aggRequirement) (f := fun r : RequirementTrace => do
      let covers ← getMut .aggRelation r.covers rel
        (fun l => pure (l ++ [(rtu.requirement, cov.location)]))
      return { r with covers := covers }) hgl' (by simp only [h3]; rfl)
  refine ⟨_, Eq.trans ?_ h4, ?_⟩
  · unfold aggCoverage
    simp only [hgu, hgl, orPanic, bind, Except.bind]
    simp only [bind, Except.bind] at h2
    rw [h2]
  · refine hs1.insert hgl' rfl rfl ?_ ?_ (fun _ _ => rfl) ?_
    · intro rel'; exact ((hs1 _).2 rtl' hgl' rel').1
    · intro rel'
      rw [BMap.get_insert]
      have := ((hs1 _).2 rtl' hgl' rel').2
      by_cases hr : rel' = rel
      · subst hr; simp [pushRef, hdl, hru]
      · simp [pushRef, hr, this]
    · intro id' hne; funext rel'; simp [pushRef, hne]

/-- The entries that one relation's coverages add below requirement `id` (`up = true`: above). -/
def belowOf (tg : TracedGraph) (id : RequirementId) (covs : List Coverage) :
    List (Requirement × Location) :=
  covs.filterMap (fun c => if c.upper = id then
    (aggReq tg c.lower).map (fun p => (p.2, c.location)) else none)

def aboveOf (tg : TracedGraph) (id : RequirementId) (covs : List Coverage) :
    List (Requirement × Location) :=
  covs.filterMap (fun c => if c.lower = id then
    (aggReq tg c.upper).map (fun p => (p.2, c.location)) else none)

theorem aggCoverages_ok {tg : TracedGraph} (rel : Relation) (covs : List Coverage) (D C : Refs)
    (reqs : BMap RequirementId RequirementTrace) (h : Shape tg D C reqs)
    (hex : ∀ c ∈ covs, (aggReq tg c.upper).isSome ∧ (aggReq tg c.lower).isSome ∧
      (D c.upper rel).isSome ∧ (C c.lower rel).isSome) :
    ∃ reqs', covs.foldlM (aggCoverage rel) reqs = .ok reqs' ∧
      Shape tg
        (fun id rel' => (D id rel').map (· ++ if rel' = rel then belowOf tg id covs else []))
        (fun id rel' => (C id rel').map (· ++ if rel' = rel then aboveOf tg id covs else [])) reqs' := by
  induction covs generalizing D C reqs with
  | nil =>
    refine ⟨reqs, rfl, h.congr ?_ ?_⟩
    · intro id rel'; simp [belowOf]
    · intro id rel'; simp [aboveOf]
  | cons c covs ih =>
    obtain ⟨e1, e2, e3, e4⟩ := hex c (by simp)
    obtain ⟨pu, hu⟩ := Option.isSome_iff_exists.1 e1
    obtain ⟨pl, hl⟩ := Option.isSome_iff_exists.1 e2
    obtain ⟨reqs1, h1, h2⟩ := aggCoverage_ok h rel c hu hl e3 e4
    obtain ⟨reqs2, h3, h4⟩ := ih _ _ reqs1 h2 (by
      intro c' hc'
      obtain ⟨e1, e2, e3, e4⟩ := hex c' (by simp [hc'])
      refine ⟨e1, e2, ?_, ?_⟩
      · unfold pushRef; split <;> simp [e3]
      · unfold pushRef; split <;> simp [e4])
    refine ⟨reqs2, ?_, h4.congr ?_ ?_⟩
    · rw [List.foldlM_cons, h1]; exact h3
    · intro id rel'
      unfold pushRef belowOf
      rw [List.filterMap_cons]
      by_cases hr : rel' = rel
      · by_cases hid : id = c.upper
        · subst hid; simp [hr, hl, Function.comp_def]
        · simp [hr, hid, Ne.symm hid]
      · simp [hr]
    · intro id rel'
      unfold pushRef aboveOf
      rw [List.filterMap_cons]
      by_cases hr : rel' = rel
      · by_cases hid : id = c.lower
        · subst hid; simp [hr, hu, Function.comp_def]
        · simp [hr, hid, Ne.symm hid]
      · simp [hr]

theorem aggregate_ok {tg : TracedGraph} (hc : Closed tg) :
    ∃ ag, aggregate tg = .ok ag ∧ ag.tracedGraph = tg ∧
      Shape tg
        (fun id rel => if rel ∈ tg.tracedRelations.map (·.relation) ∧ id ∈ keysOf tg rel.upper
          then some (belowOf tg id (coveragesAlong tg rel)) else none)
        (fun id rel => if rel ∈ tg.tracedRelations.map (·.relation) ∧ ∃ a ∈ rel.lower, id ∈ keysOf tg a
          then some (aboveOf tg id (coveragesAlong tg rel)) else none) ag.requirements ∧
      ArtShape tg
        (fun a => tg.tracedRelations.flatMap (fun tr =>
          (tr.relation.lower.filter (fun b => b = a)).map (fun _ => tr)))
        (fun a => tg.tracedRelations.filter (fun tr => tr.relation.upper = a)) ag.artefacts := by
  obtain ⟨s, h1, h2, h3⟩ := aggRelations_ok hc
  have aux : ∀ (post : List TracedRelation) (D C : Refs)
      (reqs : BMap RequirementId RequirementTrace), Shape tg D C reqs →
      (∀ tr ∈ post, ∀ c ∈ tr.covered, (aggReq tg c.upper).isSome ∧ (aggReq tg c.lower).isSome ∧
        (D c.upper tr.relation).isSome ∧ (C c.lower tr.relation).isSome) →
      ∃ reqs', post.foldlM (fun reqs rel =>
        rel.covered.foldlM (aggCoverage rel.relation) reqs) reqs = .ok reqs' ∧
        Shape tg
          (fun id rel => (D id rel).map (· ++ belowOf tg id
            ((post.filter (fun tr => tr.relation = rel)).flatMap (·.covered))))
          (fun id rel => (C id rel).map (· ++ aboveOf tg id
            ((post.filter (fun tr => tr.relation = rel)).flatMap (·.covered)))) reqs' := by
    intro post
    induction post with
    | nil =>
      intro D C reqs h _
      exact ⟨reqs, rfl, h.congr (fun _ _ => by simp [belowOf]) (fun _ _ => by simp [aboveOf])⟩
    | cons tr post ih =>
      intro D C reqs h hex
      obtain ⟨reqs1, e1, e2⟩ := aggCoverages_ok tr.relation tr.covered D C reqs h
        (hex tr (by simp))
      obtain ⟨reqs2, e3, e4⟩ := ih _ _ reqs1 e2 (by
        intro tr' htr' c hc
        obtain ⟨f1, f2, f3, f4⟩ := hex tr' (by simp [htr']) c hc
        exact ⟨f1, f2, by simp [f3], by simp [f4]⟩)
      refine ⟨reqs2, ?_, e4.congr ?_ ?_⟩
      · rw [List.foldlM_cons, e1]; exact e3
      · intro id rel
        rw [List.filter_cons]
        by_cases hr : rel = tr.relation
        · subst hr; simp [Function.comp_def, belowOf]
        · simp [hr, Ne.symm hr, Function.comp_def]
      · intro id rel
        rw [List.filter_cons]
        by_cases hr : rel = tr.relation
        · subst hr; simp [Function.comp_def, aboveOf]
        · simp [hr, Ne.symm hr, Function.comp_def]
  obtain ⟨reqs, h4, h5⟩ := aux tg.tracedRelations _ _ s.2 h2 (by
    intro tr htr c hcc
    have hu := hc.covUpper tr htr c hcc
    obtain ⟨a, ha, hl⟩ := hc.covLower tr htr c hcc
    refine ⟨(aggReq_isSome _ _).2 ⟨_, hu⟩, (aggReq_isSome _ _).2 ⟨_, hl⟩, ?_, ?_⟩
    · unfold depends1
      rw [if_pos ⟨tr, htr, rfl, (mem_keysOf _ _ _).2 hu⟩]; rfl
    · unfold covers1
      rw [if_pos ⟨tr, htr, rfl, a, ha, (mem_keysOf _ _ _).2 hl⟩]; rfl)
  refine ⟨⟨tg, s.1, reqs⟩, ?_, rfl, h5.congr ?_ ?_, h3⟩
  · unfold aggregate
    rw [h1]
    simp only [bind, Except.bind]
    rw [h4]; rfl
  · intro id rel
    unfold depends1 coveragesAlong
    have : (∃ tr ∈ tg.tracedRelations, tr.relation = rel ∧ id ∈ keysOf tg rel.upper) ↔
        (rel ∈ tg.tracedRelations.map (·.relation) ∧ id ∈ keysOf tg rel.upper) := by
      rw [List.mem_map]
      constructor
      · rintro ⟨tr, h1, h2, h3⟩; exact ⟨⟨tr, h1, h2⟩, h3⟩
      · rintro ⟨⟨tr, h1, h2⟩, h3⟩; exact ⟨tr, h1, h2, h3⟩
    by_cases hb : rel ∈ tg.tracedRelations.map (·.relation) ∧ id ∈ keysOf tg rel.upper
    · rw [if_pos hb, if_pos (this.2 hb)]; simp
    · rw [if_neg hb, if_neg (fun h => hb (this.1 h))]; rfl
  · intro id rel
    unfold covers1 coveragesAlong
    have : (∃ tr ∈ tg.tracedRelations, tr.relation = rel ∧ ∃ a ∈ rel.lower, id ∈ keysOf tg a) ↔
        (rel ∈ tg.tracedRelations.map (·.relation) ∧ ∃ a ∈ rel.lower, id ∈ keysOf tg a) := by
      rw [List.mem_map]
      constructor
      · rintro ⟨tr, h1, h2, h3⟩; exact ⟨⟨tr, h1, h2⟩, h3⟩
      · rintro ⟨⟨tr, h1, h2⟩, h3⟩; exact ⟨tr, h1, h2, h3⟩
    by_cases hb : rel ∈ tg.tracedRelations.map (·.relation) ∧ ∃ a ∈ rel.lower, id ∈ keysOf tg a
    · rw [if_pos hb, if_pos (this.2 hb)]; simp
    · rw [if_neg hb, if_neg (fun h => hb (this.1 h))]; rfl

/-! ## When aggregation returns, the artefacts exist -/

section dom
variable {κ ν : Type} [Ord κ] [Std.TransOrd κ] [Std.LawfulEqOrd κ] [DecidableEq κ]

theorem getMut_dom {p : Panic} {m m' : BMap κ ν} {k : κ} {f : ν → PanicM ν}
    (h : getMut p m k f = .ok m') : (m.get k).isSome ∧ ∀ k', (m'.get k').isSome = (m.get k').isSome := by
  unfold getMut at h
  cases hg : m.get k with
  | none => simp [hg, orPanic, bind, Except.bind] at h
  | some v =>
    simp only [hg, orPanic, bind, Except.bind] at h
    cases hf : f v with
    | error e => simp [hf] at h
    | ok v' =>
      simp only [hf, pure, Except.pure, Except.ok.injEq] at h
      subst h
      refine ⟨rfl, ?_⟩
      intro k'
      rw [BMap.get_insert]
      by_cases he : k' = k
      · subst he; simp [hg]
      · simp [he]

end dom

theorem aggLower_dom {tg : TracedGraph} {rel : TracedRelation} {s s' : AggState} {a : ArtefactId}
    (h : aggLower tg rel s a = .ok s') :
    (s.1.get a).isSome ∧ ∀ b, (s'.1.get b).isSome = (s.1.get b).isSome := by
  unfold aggLower at h
  simp only [bind, Except.bind] at h
  split at h
  · cases h
  · rename_i arts h1
    split at h
    · cases h
    · split at h
      · cases h
      · cases h
        exact getMut_dom h1

theorem aggLowers_dom {tg : TracedGraph} {rel : TracedRelation} (ls : List ArtefactId)
    {s s' : AggState} (h : ls.foldlM (aggLower tg rel) s = .ok s') :
    (∀ a ∈ ls, (s.1.get a).isSome) ∧ ∀ b, (s'.1.get b).isSome = (s.1.get b).isSome := by
  induction ls generalizing s with
  | nil => cases h; exact ⟨by simp, fun _ => rfl⟩
  | cons a ls ih =>
    rw [List.foldlM_cons] at h
    simp only [bind, Except.bind] at h
    split at h
    · cases h
    · rename_i s1 h1
      obtain ⟨e1, e2⟩ := aggLower_dom h1
      obtain ⟨e3, e4⟩ := ih h
      refine ⟨?_, fun b => by rw [e4, e2]⟩
      intro b hb
      rcases List.mem_cons.1 hb with rfl | hb
      · exact e1
      · rw [← e2]; exact e3 b hb

theorem aggRelation_dom {tg : TracedGraph} {rel : TracedRelation} {s s' : AggState}
    (h : aggRelation tg s rel = .ok s') :
    (s.1.get rel.relation.upper).isSome ∧ (∀ a ∈ rel.relation.lower, (s.1.get a).isSome) ∧
      ∀ b, (s'.1.get b).isSome = (s.1.get b).isSome := by
  unfold aggRelation at h
  simp only [bind, Except.bind] at h
  split at h
  · cases h
  · rename_i arts h1
    split at h
    · cases h
    · split at h
      · cases h
      · obtain ⟨e1, e2⟩ := getMut_dom h1
        obtain ⟨e3, e4⟩ := aggLowers_dom _ h
        exact ⟨e1, fun a ha => by rw [← e2]; exact e3 a ha, fun b => by rw [e4, e2]⟩

theorem aggregate_dom {tg : TracedGraph} {ag : AggregatedGraph} (h : aggregate tg = .ok ag) :
    ∀ tr ∈ tg.tracedRelations, (tg.artefacts.get tr.relation.upper).isSome ∧
      ∀ a ∈ tr.relation.lower, (tg.artefacts.get a).isSome := by
  have aux : ∀ (l : List TracedRelation) (s s' : AggState), l.foldlM (aggRelation tg) s = .ok s' →
      ∀ tr ∈ l, (s.1.get tr.relation.upper).isSome ∧
        ∀ a ∈ tr.relation.lower, (s.1.get a).isSome := by
    intro l
    induction l with
    | nil => intro s s' _ tr h; cases h
    | cons t l ih =>
      intro s s' h tr htr
      rw [List.foldlM_cons] at h
      simp only [bind, Except.bind] at h
      split at h
      · cases h
      · rename_i s1 h1
        obtain ⟨e1, e2, e3⟩ := aggRelation_dom h1
        rcases List.mem_cons.1 htr with rfl | htr
        · exact ⟨e1, e2⟩
        · obtain ⟨e4, e5⟩ := ih _ _ h tr htr
          exact ⟨by rw [← e3]; exact e4, fun a ha => by rw [← e3]; exact e5 a ha⟩
  unfold aggregate at h
  simp only [bind, Except.bind] at h
  split at h
  · cases h
  · rename_i s h1
    intro tr htr
    have := aux _ _ _ h1 tr htr
    have hd : ∀ a, ((initArtefacts tg).get a).isSome = (tg.artefacts.get a).isSome := by
      intro a; rw [artShape_init tg a, Option.isSome_map]
    simpa only [hd] using this

end Reqtrace
