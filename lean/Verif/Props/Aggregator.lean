import Verif.Lemmas.Aggregator
import Verif.Props.Trace

/-!
# Aggregator properties C14–C16, C59
-/

set_option linter.unusedSimpArgs false

namespace Reqtrace

open Spec

theorem traced_closed {g : Graph} (hk : Keyed g) (hr : RelationsExist g) : Closed (traced g) := by
  have hrel : ∀ tr ∈ (traced g).tracedRelations, tr.relation ∈ g.relations ∧
      tr = tracedRelation g tr.relation := by
    intro tr htr
    obtain ⟨rel, h1, rfl⟩ := List.mem_map.1 htr
    exact ⟨h1, rfl⟩
  have hev : ∀ tr ∈ (traced g).tracedRelations, ∀ c ∈ tr.covered,
      ∃ e : Event, Establishes g tr.relation e.lowerArt e.upper e.lower e.ref e.dir ∧ c = e.coverage := by
    intro tr htr c hc
    rw [(hrel tr htr).2] at hc
    obtain ⟨e, he, rfl⟩ := List.mem_map.1 hc
    exact ⟨e, (mem_relEvents hk _ _).1 he, rfl⟩
  constructor
  · intro tr htr
    obtain ⟨art, h⟩ := (hr _ (hrel tr htr).1).1
    simp [traced, h]
  · intro tr htr a ha
    obtain ⟨art, h⟩ := (hr _ (hrel tr htr).1).2 a ha
    simp [traced, h]
  · intro tr htr c hc
    obtain ⟨⟨a, u, l, r, d⟩, he, rfl⟩ := hev tr htr c hc
    cases he with
    | down h1 _ _ _ _ => obtain ⟨art, h2, h3⟩ := h1; exact ⟨art, u, h2, h3⟩
    | up h1 _ _ _ _ => obtain ⟨art, h2, h3⟩ := h1; exact ⟨art, u, h2, h3⟩
  · intro tr htr c hc
    obtain ⟨⟨a, u, l, r, d⟩, he, rfl⟩ := hev tr htr c hc
    cases he with
    | down _ h1 h2 _ _ => obtain ⟨art, h3, h4⟩ := h2.1; exact ⟨a, h1, art, l, h3, h4⟩
    | up _ h1 h2 _ _ => obtain ⟨art, h3, h4⟩ := h2.1; exact ⟨a, h1, art, l, h3, h4⟩

theorem relationsExist_of_aggregate {g : Graph} {ag : AggregatedGraph}
    (h : aggregate (traced g) = .ok ag) : RelationsExist g := by
  intro rel hrel
  have := aggregate_dom h (tracedRelation g rel) (List.mem_map.2 ⟨rel, hrel, rfl⟩)
  refine ⟨Option.isSome_iff_exists.1 this.1, fun a ha => Option.isSome_iff_exists.1 (this.2 a ha)⟩

/-! ## C14 -/

/-- **C14** as listed: cross-referencing returns whenever tracing returned. -/
def C14_statement : Prop :=
  ∀ g tg, Keyed g → trace g = .ok tg → ∃ ag, aggregate tg = .ok ag

/-- A relation from an empty artefact to one that does not exist. -/
def Example.emptyUpper : Graph := ⟨.ofList [(c!"UP", Example.art c!"UP" true true [])],
  [⟨c!"UP", [c!"NONE"]⟩]⟩

/-- **C14** is false as listed: tracing does not look at the lower artefacts of a relation whose
upper artefact is empty. -/
theorem C14_false : ¬ C14_statement := by
  intro h
  obtain ⟨ag, hag⟩ := h Example.emptyUpper (traced Example.emptyUpper)
    (Example.keyed_of_check (by decide +kernel)) (by decide +kernel)
  have := relationsExist_of_aggregate hag ⟨c!"UP", [c!"NONE"]⟩ (by simp [Example.emptyUpper])
  obtain ⟨art, h⟩ := this.2 c!"NONE" (by simp)
  have h2 : Example.emptyUpper.artefacts.get c!"NONE" = none := by decide +kernel
  rw [h2] at h; cases h

/-- **C14**, **C59**: cross-referencing a traced graph returns exactly when all artefacts that
relations name exist. -/
theorem C14_aggregate_ok_iff_partial {g : Graph} {tg : TracedGraph} (hk : Keyed g)
    (h : trace g = .ok tg) : (∃ ag, aggregate tg = .ok ag) ↔ RelationsExist g := by
  obtain ⟨_, rfl⟩ := (trace_ok_iff hk tg).1 h
  constructor
  · rintro ⟨ag, hag⟩; exact relationsExist_of_aggregate hag
  · intro hr
    obtain ⟨ag, h, _⟩ := aggregate_ok (traced_closed hk hr)
    exact ⟨ag, h⟩

/-- **C59** Tracing and cross-referencing a graph whose relations name existing artefacts never
panics. -/
theorem C59_no_panic {g : Graph} (hk : Keyed g) (hr : RelationsExist g) :
    ∃ tg ag, trace g = .ok tg ∧ aggregate tg = .ok ag := by
  obtain ⟨tg, h⟩ := C10_no_panic hk hr
  obtain ⟨ag, h2⟩ := (C14_aggregate_ok_iff_partial hk h).2 hr
  exact ⟨tg, ag, h, h2⟩

/-! ## C15, C16 -/

theorem filterMap_congr' {α β : Type} {f f' : α → Option β} {l : List α}
    (h : ∀ a ∈ l, f a = f' a) : l.filterMap f = l.filterMap f' := by
  induction l with
  | nil => rfl
  | cons a l ih =>
    rw [List.filterMap_cons, List.filterMap_cons, h a (by simp), ih (fun b hb => h b (by simp [hb]))]

/-- The aggregator keeps the definition of the last artefact. -/
theorem aggReq_last {g : Graph} (hk : Keyed g) {id : RequirementId} {art : Artefact}
    {r : Requirement} (h : aggReq (traced g) id = some (art, r)) {b : ArtefactId} {art' : Artefact}
    (hb : g.artefacts.get b = some art') (hr : (art'.requirements.get id).isSome) :
    compare art'.id art.id ≠ .gt := by
  have hsorted : g.artefacts.values.Pairwise (fun x y => compare x.id y.id = .lt) := by
    have h1 := g.artefacts.keys_sorted
    have h2 : g.artefacts.values.map (·.id) = g.artefacts.keys := by
      unfold BMap.values BMap.keys
      rw [List.map_map]
      apply List.map_congr_left
      rintro ⟨k, v⟩ hm
      exact hk.artefact k v ((BMap.get_eq_some_iff _ _ _).2 hm)
    rw [← h2, List.pairwise_map] at h1
    exact h1
  let f : Artefact → List (RequirementId × RequirementTrace) := fun a =>
    a.requirements.entries.map (fun e => (e.1, ⟨.empty, .empty, a, e.2⟩))
  have hf : ∀ (a : Artefact) x, x ∈ f a → x.2.artefact = a := by
    intro a x hx
    obtain ⟨e, _, rfl⟩ := List.mem_map.1 hx
    rfl
  have hL : (g.artefacts.values.flatMap f).Pairwise
      (fun x y => compare x.2.artefact.id y.2.artefact.id ≠ .gt) := by
    rw [List.pairwise_flatMap]
    constructor
    · intro a _
      apply List.Pairwise.imp_of_mem (R := fun _ _ => True)
      · intro x y hx hy _
        rw [hf a x hx, hf a y hy]; simp
      · exact List.pairwise_of_forall (fun _ _ => trivial)
    · refine hsorted.imp ?_
      intro a b hab x hx y hy
      rw [hf a x hx, hf b y hy, hab]; simp
  unfold aggReq initRequirements at h
  rw [Option.map_eq_some_iff] at h
  obtain ⟨rt, h1, h2⟩ := h
  rw [get_ofList, Option.map_eq_some_iff] at h1
  obtain ⟨e, h3, rfl⟩ := h1
  change ((g.artefacts.values.flatMap f).reverse.find? _) = _ at h3
  rw [List.find?_eq_some_iff_append] at h3
  obtain ⟨h4, as, bs, h5, h6⟩ := h3
  have h7 : g.artefacts.values.flatMap f = bs.reverse ++ e :: as.reverse := by
    have := congrArg List.reverse h5
    simpa using this
  obtain ⟨r', hr'⟩ := Option.isSome_iff_exists.1 hr
  have hm : (id, (⟨.empty, .empty, art', r'⟩ : RequirementTrace)) ∈ g.artefacts.values.flatMap f :=
    List.mem_flatMap.2 ⟨art', (BMap.mem_values_iff _ _).2 ⟨b, hb⟩,
      List.mem_map.2 ⟨(id, r'), (BMap.get_eq_some_iff _ _ _).1 hr', rfl⟩⟩
  rw [h7] at hm hL
  have hart : e.2.artefact = art := congrArg Prod.fst h2
  rw [List.pairwise_append] at hL
  rw [← hart]
  rcases List.mem_append.1 hm with hm | hm
  · exact hL.2.2 _ hm e (by simp)
  · rcases List.mem_cons.1 hm with rfl | hm
    · simp
    · have := h6 _ (List.mem_reverse.1 hm)
      simp at this

section
variable {g : Graph} {tg : TracedGraph} {ag : AggregatedGraph} (hk : Keyed g)
  (h : trace g = .ok tg) (ha : aggregate tg = .ok ag)
include hk h ha

theorem aggregated : Closed tg ∧ ag.tracedGraph = tg ∧
      Shape tg
        (fun id rel => if rel ∈ tg.tracedRelations.map (·.relation) ∧ id ∈ keysOf tg rel.upper
          then some (belowOf tg id (coveragesAlong tg rel)) else none)
        (fun id rel => if rel ∈ tg.tracedRelations.map (·.relation) ∧ ∃ a ∈ rel.lower, id ∈ keysOf tg a
          then some (aboveOf tg id (coveragesAlong tg rel)) else none) ag.requirements ∧
      ArtShape tg
        (fun a => tg.tracedRelations.flatMap (fun tr =>
          (tr.relation.lower.filter (fun b => b = a)).map (fun _ => tr)))
        (fun a => tg.tracedRelations.filter (fun tr => tr.relation.upper = a)) ag.artefacts := by
  obtain ⟨_, rfl⟩ := (trace_ok_iff hk tg).1 h
  have hc := traced_closed hk (relationsExist_of_aggregate ha)
  obtain ⟨ag', h1, h2⟩ := aggregate_ok hc
  rw [ha] at h1
  cases h1
  exact ⟨hc, h2⟩

/-- **C15**, the requirements: exactly the ids of the graph, each with the definition from the last
artefact that has it. -/
theorem C15_requirements (id : RequirementId) :
    ((ag.requirements.get id).isSome ↔ ∃ a, Has tg a id) ∧
    ∀ rt, ag.requirements.get id = some rt →
      ∃ a, g.artefacts.get a = some rt.artefact ∧
        rt.artefact.requirements.get id = some rt.requirement ∧
        ∀ b, Has tg b id → compare b a ≠ .gt := by
  obtain ⟨_, _, hs, _⟩ := aggregated hk h ha
  obtain ⟨_, rfl⟩ := (trace_ok_iff hk tg).1 h
  constructor
  · rw [← aggReq_isSome, ← (hs id).1, Option.isSome_map]
  · intro rt hrt
    have hq : aggReq (traced g) id = some (rt.artefact, rt.requirement) := by
      rw [← (hs id).1, hrt]; rfl
    obtain ⟨a, h1, h2⟩ := aggReq_spec hq
    refine ⟨a, h1, h2, ?_⟩
    rintro b ⟨art, req, h3, h4⟩
    have := aggReq_last hk hq h3 (by rw [h4]; rfl)
    rwa [hk.artefact a _ h1, hk.artefact b _ h3] at this

theorem aggReq_eq (id : RequirementId) :
    (aggReq tg id).map (·.2) = (ag.requirements.get id).map (·.requirement) := by
  obtain ⟨_, _, hs, _⟩ := aggregated hk h ha
  rw [← (hs id).1, Option.map_map]; rfl

/-- **C15**, downwards: below requirement `r` along `rel` are exactly the coverages with upper
requirement `r`, each with the requirement of its lower id. -/
theorem C15_depends {r : RequirementId} {rt : RequirementTrace} (hr : ag.requirements.get r = some rt)
    (rel : Relation) :
    ((rt.depends.get rel).isSome ↔ rel ∈ g.relations ∧ Has tg rel.upper r) ∧
    ∀ l, rt.depends.get rel = some l →
      l = ((coveragesAlong tg rel).filter (fun c => c.upper = r)).filterMap (fun c =>
        (ag.requirements.get c.lower).map (fun low => (low.requirement, c.location))) ∧
      l.map (·.2) = ((coveragesAlong tg rel).filter (fun c => c.upper = r)).map (·.location) := by
  obtain ⟨hc, _, hs, _⟩ := aggregated hk h ha
  have hq := fun id => aggReq_eq hk h ha id
  have hrels : tg.tracedRelations.map (·.relation) = g.relations := by
    obtain ⟨_, rfl⟩ := (trace_ok_iff hk tg).1 h
    simp [traced, tracedRelation, Function.comp_def]
  rw [((hs r).2 rt hr rel).1, hrels]
  simp only [mem_keysOf]
  constructor
  · simp only [← mem_keysOf]
    split <;> simp_all
  · intro l hl
    split at hl
    · cases hl
      have e1 : belowOf tg r (coveragesAlong tg rel) =
          ((coveragesAlong tg rel).filter (fun c => c.upper = r)).filterMap (fun c =>
            (ag.requirements.get c.lower).map (fun low => (low.requirement, c.location))) := by
        unfold belowOf
        rw [List.filterMap_filter]
        apply filterMap_congr'
        intro c _
        by_cases hu : c.upper = r
        · simp only [hu, if_true, decide_true]
          have := hq c.lower
          cases h1 : aggReq tg c.lower <;> cases h2 : ag.requirements.get c.lower <;> simp_all
        · simp [hu]
      refine ⟨e1, ?_⟩
      rw [e1]
      have : ∀ cs : List Coverage, (∀ c ∈ cs, (ag.requirements.get c.lower).isSome) →
          (cs.filterMap (fun c => (ag.requirements.get c.lower).map
            (fun low => (low.requirement, c.location)))).map (·.2) = cs.map (·.location) := by
        intro cs
        induction cs with
        | nil => intro _; rfl
        | cons c cs ih =>
          intro hcs
          obtain ⟨x, hx⟩ := Option.isSome_iff_exists.1 (hcs c (by simp))
          simp [hx, ih (fun c hc => hcs c (by simp [hc]))]
      apply this
      intro c hcc
      have hm := (List.mem_filter.1 hcc).1
      unfold coveragesAlong at hm
      obtain ⟨tr, htr, hct⟩ := List.mem_flatMap.1 hm
      obtain ⟨a, _, hl⟩ := hc.covLower tr (List.mem_filter.1 htr).1 c hct
      exact (C15_requirements hk h ha c.lower).1.2 ⟨a, hl⟩
    · cases hl

/-- **C15**, upwards. -/
theorem C15_covers {r : RequirementId} {rt : RequirementTrace} (hr : ag.requirements.get r = some rt)
    (rel : Relation) :
    ((rt.covers.get rel).isSome ↔ rel ∈ g.relations ∧ ∃ a ∈ rel.lower, Has tg a r) ∧
    ∀ l, rt.covers.get rel = some l →
      l = ((coveragesAlong tg rel).filter (fun c => c.lower = r)).filterMap (fun c =>
        (ag.requirements.get c.upper).map (fun up => (up.requirement, c.location))) ∧
      l.map (·.2) = ((coveragesAlong tg rel).filter (fun c => c.lower = r)).map (·.location) := by
  obtain ⟨hc, _, hs, _⟩ := aggregated hk h ha
  have hq := fun id => aggReq_eq hk h ha id
  have hrels : tg.tracedRelations.map (·.relation) = g.relations := by
    obtain ⟨_, rfl⟩ := (trace_ok_iff hk tg).1 h
    simp [traced, tracedRelation, Function.comp_def]
  rw [((hs r).2 rt hr rel).2, hrels]
  simp only [mem_keysOf]
  constructor
  · simp only [← mem_keysOf]
    split <;> simp_all
  · intro l hl
    split at hl
    · cases hl
      have e1 : aboveOf tg r (coveragesAlong tg rel) =
          ((coveragesAlong tg rel).filter (fun c => c.lower = r)).filterMap (fun c =>
            (ag.requirements.get c.upper).map (fun up => (up.requirement, c.location))) := by
        unfold aboveOf
        rw [List.filterMap_filter]
        apply filterMap_congr'
        intro c _
        by_cases hu : c.lower = r
        · simp only [hu, if_true, decide_true]
          have := hq c.upper
          cases h1 : aggReq tg c.upper <;> cases h2 : ag.requirements.get c.upper <;> simp_all
        · simp [hu]
      refine ⟨e1, ?_⟩
      rw [e1]
      have : ∀ cs : List Coverage, (∀ c ∈ cs, (ag.requirements.get c.upper).isSome) →
          (cs.filterMap (fun c => (ag.requirements.get c.upper).map
            (fun up => (up.requirement, c.location)))).map (·.2) = cs.map (·.location) := by
        intro cs
        induction cs with
        | nil => intro _; rfl
        | cons c cs ih =>
          intro hcs
          obtain ⟨x, hx⟩ := Option.isSome_iff_exists.1 (hcs c (by simp))
          simp [hx, ih (fun c hc => hcs c (by simp [hc]))]
      apply this
      intro c hcc
      have hm := (List.mem_filter.1 hcc).1
      unfold coveragesAlong at hm
      obtain ⟨tr, htr, hct⟩ := List.mem_flatMap.1 hm
      have hu := hc.covUpper tr (List.mem_filter.1 htr).1 c hct
      exact (C15_requirements hk h ha c.upper).1.2 ⟨_, hu⟩
    · cases hl

theorem aggregated_id {id : RequirementId} {rt : RequirementTrace}
    (hg : ag.requirements.get id = some rt) : rt.requirement.id = id := by
  obtain ⟨a, h1, h2, _⟩ := (C15_requirements hk h ha id).2 rt hg
  exact hk.requirement a _ h1 id _ h2

theorem aggregated_exists {tr : TracedRelation} (ht : tr ∈ tg.tracedRelations) {c : Coverage}
    (hc : c ∈ tr.covered) : (∃ u, ag.requirements.get c.upper = some u) ∧
      (∃ l, ag.requirements.get c.lower = some l) := by
  obtain ⟨hcl, _⟩ := aggregated hk h ha
  obtain ⟨a, _, hl⟩ := hcl.covLower tr ht c hc
  exact ⟨Option.isSome_iff_exists.1 ((C15_requirements hk h ha c.upper).1.2 ⟨_, hcl.covUpper tr ht c hc⟩),
    Option.isSome_iff_exists.1 ((C15_requirements hk h ha c.lower).1.2 ⟨a, hl⟩)⟩

/-- **C15** The two directions are inverse to each other: `l` is listed below `u` with a location
iff `u` is listed above `l` with that location. -/
theorem C15_inverse {u l : RequirementId} {ut lt : RequirementTrace}
    (hu : ag.requirements.get u = some ut) (hl : ag.requirements.get l = some lt) (rel : Relation)
    (loc : Location) :
    (∃ xs, ut.depends.get rel = some xs ∧ (lt.requirement, loc) ∈ xs) ↔
    (∃ xs, lt.covers.get rel = some xs ∧ (ut.requirement, loc) ∈ xs) := by
  have hcl := (aggregated hk h ha).1
  have hrels : ∀ rel, rel ∈ g.relations ↔ ∃ tr ∈ tg.tracedRelations, tr.relation = rel := by
    obtain ⟨_, rfl⟩ := (trace_ok_iff hk tg).1 h
    intro rel
    constructor
    · intro hr; exact ⟨_, List.mem_map.2 ⟨rel, hr, rfl⟩, rfl⟩
    · rintro ⟨tr, htr, rfl⟩
      obtain ⟨rel, h1, rfl⟩ := List.mem_map.1 htr
      exact h1
  have hcov : ∀ c, c ∈ coveragesAlong tg rel ↔
      ∃ tr ∈ tg.tracedRelations, tr.relation = rel ∧ c ∈ tr.covered := by
    intro c; simp [coveragesAlong, and_assoc]
  constructor
  · rintro ⟨xs, h1, h2⟩
    rw [((C15_depends hk h ha hu rel).2 xs h1).1, List.mem_filterMap] at h2
    obtain ⟨c, h3, h4⟩ := h2
    obtain ⟨h5, h6⟩ := List.mem_filter.1 h3
    obtain ⟨tr, ht, hrel, hct⟩ := (hcov c).1 h5
    obtain ⟨low, h7, h8⟩ := Option.map_eq_some_iff.1 h4
    have hloc : c.location = loc := congrArg Prod.snd h8
    have hlid : c.lower = l := by
      rw [← aggregated_id hk h ha h7, ← aggregated_id hk h ha hl]
      exact congrArg (fun x => x.1.id) h8
    have huid : c.upper = u := by simpa using h6
    subst hlid huid
    obtain ⟨a, ha1, ha2⟩ := hcl.covLower tr ht c hct
    have h9 := (C15_covers hk h ha hl rel).1.2 ⟨(hrels rel).2 ⟨tr, ht, hrel⟩, a, hrel ▸ ha1, ha2⟩
    obtain ⟨ys, hys⟩ := Option.isSome_iff_exists.1 h9
    refine ⟨ys, hys, ?_⟩
    rw [((C15_covers hk h ha hl rel).2 ys hys).1, List.mem_filterMap]
    exact ⟨c, List.mem_filter.2 ⟨h5, by simp⟩, by simp [hu, hloc]⟩
  · rintro ⟨xs, h1, h2⟩
    rw [((C15_covers hk h ha hl rel).2 xs h1).1, List.mem_filterMap] at h2
    obtain ⟨c, h3, h4⟩ := h2
    obtain ⟨h5, h6⟩ := List.mem_filter.1 h3
    obtain ⟨tr, ht, hrel, hct⟩ := (hcov c).1 h5
    obtain ⟨up, h7, h8⟩ := Option.map_eq_some_iff.1 h4
    have hloc : c.location = loc := congrArg Prod.snd h8
    have huid : c.upper = u := by
      rw [← aggregated_id hk h ha h7, ← aggregated_id hk h ha hu]
      exact congrArg (fun x => x.1.id) h8
    have hlid : c.lower = l := by simpa using h6
    subst hlid huid
    have h9 := (C15_depends hk h ha hu rel).1.2
      ⟨(hrels rel).2 ⟨tr, ht, hrel⟩, hrel ▸ hcl.covUpper tr ht c hct⟩
    obtain ⟨ys, hys⟩ := Option.isSome_iff_exists.1 h9
    refine ⟨ys, hys, ?_⟩
    rw [((C15_depends hk h ha hu rel).2 ys hys).1, List.mem_filterMap]
    exact ⟨c, List.mem_filter.2 ⟨h5, by simp⟩, by simp [hl, hloc]⟩

/-- **C15**, artefacts: below an artefact are the relations it is the upper artefact of, above it
those it is a lower artefact of. -/
theorem C15_artefacts (a : ArtefactId) :
    (ag.artefacts.get a).map (·.artefact) = g.artefacts.get a ∧
    ∀ ar, ag.artefacts.get a = some ar →
      ar.lower = tg.tracedRelations.filter (fun tr => tr.relation.upper = a) ∧
      ∀ tr, tr ∈ ar.upper ↔ tr ∈ tg.tracedRelations ∧ a ∈ tr.relation.lower := by
  obtain ⟨_, _, _, hs⟩ := aggregated hk h ha
  have hart : tg.artefacts = g.artefacts := by
    obtain ⟨_, rfl⟩ := (trace_ok_iff hk tg).1 h; rfl
  rw [hs a, hart, Option.map_map]
  refine ⟨by cases g.artefacts.get a <;> rfl, ?_⟩
  intro ar har
  obtain ⟨art, _, rfl⟩ := Option.map_eq_some_iff.1 har
  refine ⟨rfl, ?_⟩
  intro tr
  simp only [List.mem_flatMap, List.mem_map, List.mem_filter, decide_eq_true_eq]
  constructor
  · rintro ⟨tr', h1, b, ⟨h2, rfl⟩, rfl⟩; exact ⟨h1, h2⟩
  · rintro ⟨h1, h2⟩; exact ⟨tr, h1, a, ⟨h2, rfl⟩, rfl⟩

/-- **C16** The matrix shows nothing below a requirement exactly when it is listed as uncovered. -/
theorem C16_uncovered_agrees {tr : TracedRelation} (ht : tr ∈ tg.tracedRelations)
    {r : RequirementId} {rt : RequirementTrace} (hr : ag.requirements.get r = some rt)
    (hup : Has tg tr.relation.upper r) :
    rt.depends.get tr.relation = some [] ↔ r ∈ tr.uncovered := by
  obtain ⟨htr, rfl⟩ := (trace_ok_iff hk tg).1 h
  obtain ⟨rel, hrel, rfl⟩ := List.mem_map.1 ht
  have hcov : ∀ c, c ∈ coveragesAlong (traced g) rel ↔ c ∈ (relEvents g rel).map Event.coverage := by
    intro c
    simp only [coveragesAlong, List.mem_flatMap, List.mem_filter, decide_eq_true_eq]
    constructor
    · rintro ⟨tr', ⟨h1, h2⟩, h3⟩
      obtain ⟨rel', _, rfl⟩ := List.mem_map.1 h1
      have : rel' = rel := h2
      subst this
      exact h3
    · intro hc; exact ⟨tracedRelation g rel, ⟨ht, rfl⟩, hc⟩
  have hsome := (C15_depends hk h ha hr rel).1.2 ⟨hrel, hup⟩
  obtain ⟨l, hl⟩ := Option.isSome_iff_exists.1 hsome
  have hl2 := ((C15_depends hk h ha hr rel).2 l hl).2
  have hnil : l = [] ↔ ∀ e ∈ relEvents g rel, e.upper.id ≠ r := by
    have : l = [] ↔ (coveragesAlong (traced g) rel).filter (fun c => c.upper = r) = [] := by
      rw [← List.map_eq_nil_iff (f := (·.2)), hl2, List.map_eq_nil_iff]
    rw [this, List.filter_eq_nil_iff]
    constructor
    · intro hh e he heq
      exact hh _ ((hcov _).2 (List.mem_map.2 ⟨e, he, rfl⟩)) (decide_eq_true heq)
    · intro hh c hc hcr
      obtain ⟨e, he, rfl⟩ := List.mem_map.1 ((hcov c).1 hc)
      exact hh e he (of_decide_eq_true hcr)
  show rt.depends.get rel = some [] ↔ r ∈ uncovered g rel
  rw [hl, Option.some.injEq, hnil]
  obtain ⟨art, req, h1, h2⟩ := hup
  have hmem : req ∈ upperReqs g rel := (mem_upperReqs hk rel req).2
    ⟨art, h1, by rw [hk.requirement _ art h1 r req h2]; exact h2⟩
  have hid : req.id = r := hk.requirement _ art h1 r req h2
  unfold uncovered
  simp only [List.mem_map, List.mem_filter, List.isEmpty_iff]
  constructor
  · intro hh
    refine ⟨req, ⟨hmem, ?_⟩, hid⟩
    rw [List.eq_nil_iff_forall_not_mem]
    intro e he
    refine hh e (List.mem_flatMap.2 ⟨req, hmem, he⟩) ?_
    rw [reqEvents_upper he, hid]
  · rintro ⟨u, ⟨hu, hnil⟩, hur⟩ e he heq
    obtain ⟨u', hu', he'⟩ := List.mem_flatMap.1 he
    have h3 := reqEvents_upper he'
    obtain ⟨art1, h5, h6⟩ := (mem_upperReqs hk rel u).1 hu
    obtain ⟨art2, h7, h8⟩ := (mem_upperReqs hk rel u').1 hu'
    have : u = u' := by
      rw [h5] at h7; cases h7
      have h9 : u'.id = u.id := by rw [hur, ← heq, h3]
      rw [h9, h6] at h8
      cases h8; rfl
    subst this
    rw [hnil] at he'; cases he'

/-- **C16** The matrix shows nothing above a requirement exactly when no coverage leads to it. -/
theorem C16_above_agrees {r : RequirementId} {rt : RequirementTrace}
    (hr : ag.requirements.get r = some rt) :
    (∀ rel l, rt.covers.get rel = some l → l = []) ↔
      ∀ tr ∈ tg.tracedRelations, ∀ c ∈ tr.covered, c.lower ≠ r := by
  have hcl := (aggregated hk h ha).1
  have hrels : ∀ tr ∈ tg.tracedRelations, tr.relation ∈ g.relations := by
    obtain ⟨_, rfl⟩ := (trace_ok_iff hk tg).1 h
    intro tr htr
    obtain ⟨rel, h1, rfl⟩ := List.mem_map.1 htr
    exact h1
  constructor
  · intro hh tr htr c hc heq
    subst heq
    obtain ⟨a, ha1, ha2⟩ := hcl.covLower tr htr c hc
    obtain ⟨l, hl⟩ := Option.isSome_iff_exists.1
      ((C15_covers hk h ha hr tr.relation).1.2 ⟨hrels tr htr, a, ha1, ha2⟩)
    have h2 := ((C15_covers hk h ha hr tr.relation).2 l hl).2
    rw [hh _ _ hl, List.map_nil, eq_comm, List.map_eq_nil_iff, List.filter_eq_nil_iff] at h2
    refine h2 c ?_ (by simp)
    unfold coveragesAlong
    exact List.mem_flatMap.2 ⟨tr, List.mem_filter.2 ⟨htr, by simp⟩, hc⟩
  · intro hh rel l hl
    have h2 := ((C15_covers hk h ha hr rel).2 l hl).2
    rw [← List.map_eq_nil_iff (f := (·.2)), h2, List.map_eq_nil_iff, List.filter_eq_nil_iff]
    intro c hc heq
    unfold coveragesAlong at hc
    obtain ⟨tr, htr, hct⟩ := List.mem_flatMap.1 hc
    exact hh tr (List.mem_filter.1 htr).1 c hct (by simpa using heq)

end

/-! ## Example -/

/-- The hypotheses of C15 and C16 hold for the example graph: `U1` has two entries below it, `U2`
none, `L3` none above it, and `L1` is defined twice. -/
theorem Example.graph_aggregated : ∃ tg ag, Keyed graph ∧ trace graph = .ok tg ∧
    aggregate tg = .ok ag ∧
    ((ag.requirements.get c!"U1").bind (·.depends.get ⟨c!"UP", [c!"LO"]⟩)).map (·.length) = some 2 ∧
    ((ag.requirements.get c!"U2").bind (·.depends.get ⟨c!"UP", [c!"LO"]⟩)) = some [] ∧
    ((ag.requirements.get c!"L2").bind (·.covers.get ⟨c!"UP", [c!"LO"]⟩)).map (·.length) = some 1 ∧
    ((ag.requirements.get c!"L3").bind (·.covers.get ⟨c!"UP", [c!"LO"]⟩)) = some [] := by
  refine ⟨traced graph, _, graph_keyed, by decide +kernel, rfl, ?_⟩
  decide +kernel

end Reqtrace
