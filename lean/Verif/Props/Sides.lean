import Verif.Spec.Sides
import Verif.Props.Trace2
import Verif.Props.Jobs
import Verif.Props.Unrelated

/-!
# C152: it does not matter on which side a reference stands
-/

namespace Reqtrace

open Spec

section
variable {g : Graph} {tg : TracedGraph} (hk : Keyed g) (hu : UniqueIds g) (h : trace g = .ok tg)
include hk hu h

/-- **C152** If no id is in two artefacts, `l` is reported as covering `u` along a relation exactly if one of the two refers
to the other, `u` is in the upper artefact and `l` in a lower one. -/
theorem C152_exact {i : Nat} {tr : TracedRelation} {rel : Relation} (hi : tg.tracedRelations[i]? = some tr)
    (hr : g.relations[i]? = some rel) (u l : RequirementId) :
    IsCovered tr u l ↔ Mentions g u l ∧ HasId g rel.upper u ∧ ∃ a ∈ rel.lower, HasId g a l := by
  have same : ∀ {a b : ArtefactId} {r s : Requirement}, Defines g a r → Defines g b s → r.id = s.id → r = s := by
    intro a b r s h1 h2 e
    have := hu a b r s h1 h2 e
    subst this
    exact defines_unique h1 h2 e
  constructor
  · rintro ⟨c, hc, rfl, rfl⟩
    obtain ⟨rel', a, up, lo, ref, h1, h2, h3⟩ := (C01_coverage_exact hk h hi c).1 hc
    rw [hr] at h1
    cases h1
    rw [h3]
    simp only
    generalize c.direction = d at h2
    cases h2 with
    | down h1 h2 h3 h4 h5 => exact ⟨.inl ⟨_, _, _, h1, rfl, h4, h5⟩, ⟨_, h1, rfl⟩, a, h2, _, h3.1, rfl⟩
    | up h1 h2 h3 h4 h5 => exact ⟨.inr ⟨_, _, _, h3.1, rfl, h4, h5⟩, ⟨_, h1, rfl⟩, a, h2, _, h3.1, rfl⟩
  · rintro ⟨hm, ⟨up, h1, rfl⟩, a, h2, lo, h3, rfl⟩
    rcases hm with ⟨b, r, ref, h4, h5, h6, h7⟩ | ⟨b, r, ref, h4, h5, h6, h7⟩
    · cases same h4 h1 h5
      exact ⟨⟨up.id, lo.id, ref.location, .downwards⟩, (C01_coverage_exact hk h hi _).2
        ⟨rel, a, up, lo, ref, hr, .down h1 h2 (defines_owner hu h3) h6 h7, rfl⟩, rfl, rfl⟩
    · cases same h4 h3 h5
      exact ⟨⟨up.id, lo.id, ref.location, .upwards⟩, (C01_coverage_exact hk h hi _).2
        ⟨rel, a, up, lo, ref, hr, .up h1 h2 (defines_owner hu h3) h6 h7, rfl⟩, rfl, rfl⟩

/-- **C152** A reference between two requirements is reported as leading nowhere exactly if no relation has the one in its
upper and the other in a lower artefact, on whichever side the reference stands. -/
theorem C152_unknown (u l : RequirementId) : IsUnknown tg u l ↔
    Mentions g u l ∧ ∀ rel ∈ g.relations, ¬ (HasId g rel.upper u ∧ ∃ a ∈ rel.lower, HasId g a l) := by
  have same : ∀ {a b : ArtefactId} {r s : Requirement}, Defines g a r → Defines g b s → r.id = s.id → r = s := by
    intro a b r s h1 h2 e
    have := hu a b r s h1 h2 e
    subst this
    exact defines_unique h1 h2 e
  have first : ∀ (refs : List Reference) (k : RequirementId), (∃ ref ∈ refs, ref.id = k) ↔
      ∃ pre ref post, refs = pre ++ ref :: post ∧ ref.id = k ∧ ∀ r ∈ pre, r.id ≠ k := by
    intro refs k
    constructor
    · rintro ⟨ref, h1, h2⟩
      cases hf : refs.find? (fun r => r.id == k) with
      | none => exact absurd h2 (by simpa using List.find?_eq_none.1 hf ref h1)
      | some r =>
        obtain ⟨pre, post, e1, e2, e3⟩ := find_first.1 hf
        exact ⟨pre, r, post, e1, by simpa using e2, by simpa using e3⟩
    · rintro ⟨pre, ref, post, rfl, h1, -⟩
      exact ⟨ref, by simp, h1⟩
  have at_rel : ∀ {tr : TracedRelation}, tr ∈ tg.tracedRelations → ∃ (i : Nat) (rel : Relation), tg.tracedRelations[i]? = some tr ∧
      g.relations[i]? = some rel ∧ rel ∈ g.relations := by
    intro tr ht
    obtain ⟨i, hi⟩ := List.getElem?_of_mem ht
    have hl := (C11_frame hk h).2.2
    have h1 : g.relations[i]? = some tr.relation := by rw [← hl, List.getElem?_map, hi]; rfl
    exact ⟨i, _, hi, h1, List.mem_of_getElem? h1⟩
  have at_i : ∀ {rel : Relation}, rel ∈ g.relations → ∃ (i : Nat) (tr : TracedRelation), tg.tracedRelations[i]? = some tr ∧
      g.relations[i]? = some rel ∧ tr ∈ tg.tracedRelations := by
    intro rel hrel
    obtain ⟨i, hi⟩ := List.getElem?_of_mem hrel
    obtain ⟨_, rfl⟩ := (trace_ok_iff hk tg).1 h
    have h1 : (traced g).tracedRelations[i]? = some (tracedRelation g rel) := by simp [traced, hi]
    exact ⟨i, _, h1, hi, List.mem_of_getElem? h1⟩
  constructor
  · rintro (⟨r, loc, he, rfl⟩ | ⟨r, loc, he, rfl⟩)
    · obtain ⟨⟨a, h1⟩, ⟨pre, ref, post, h2, h3, -⟩, h4⟩ := (C04_covers_unknown hk h r u loc).1 he
      refine ⟨.inr ⟨a, r, ref, h1.1, rfl, by rw [h2]; simp, h3⟩, ?_⟩
      rintro rel hrel ⟨⟨up, h5, rfl⟩, b, h6, lo, h7, h8⟩
      obtain ⟨i, tr, hi, hri, htr⟩ := at_i hrel
      cases same h7 h1.1 h8
      exact h4 tr htr _ ((C01_coverage_exact hk h hi ⟨up.id, r.id, ref.location, .upwards⟩).2
        ⟨rel, b, up, r, ref, hri, .up h5 h6 (defines_owner hu h7) (by rw [h2]; simp) h3, rfl⟩) ⟨rfl, rfl, rfl⟩
    · obtain ⟨⟨a, h1⟩, ⟨pre, ref, post, h2, h3, -⟩, h4⟩ := (C05_depends_unknown hk h r l loc).1 he
      refine ⟨.inl ⟨a, r, ref, h1.1, rfl, by rw [h2]; simp, h3⟩, ?_⟩
      rintro rel hrel ⟨⟨up, h5, h8⟩, b, h6, lo, h7, rfl⟩
      obtain ⟨i, tr, hi, hri, htr⟩ := at_i hrel
      cases same h5 h1.1 h8
      exact h4 tr htr _ ((C01_coverage_exact hk h hi ⟨r.id, lo.id, ref.location, .downwards⟩).2
        ⟨rel, b, r, lo, ref, hri, .down h5 h6 (defines_owner hu h7) (by rw [h2]; simp) h3, rfl⟩) ⟨rfl, rfl, rfl⟩
  · rintro ⟨hm, hno⟩
    have none : ∀ tr ∈ tg.tracedRelations, ∀ c ∈ tr.covered, ¬ (c.upper = u ∧ c.lower = l) := by
      rintro tr htr c hc ⟨h1, h2⟩
      obtain ⟨i, rel, hi, hri, hrel⟩ := at_rel htr
      exact hno rel hrel ((C152_exact hk hu h hi hri u l).1 ⟨c, hc, h1, h2⟩).2
    rcases hm with ⟨a, r, ref, h1, rfl, h2, h3⟩ | ⟨a, r, ref, h1, rfl, h2, h3⟩
    · obtain ⟨pre, ref, post, e1, e2, e3⟩ := (first r.depends l).1 ⟨ref, h2, h3⟩
      exact .inr ⟨r, ref.location, (C05_depends_unknown hk h r l _).2 ⟨⟨a, defines_owner hu h1⟩,
        ⟨pre, ref, post, e1, e2, rfl, e3⟩, fun tr htr c hc hh => none tr htr c hc hh.2⟩, rfl⟩
    · obtain ⟨pre, ref, post, e1, e2, e3⟩ := (first r.covers u).1 ⟨ref, h2, h3⟩
      exact .inl ⟨r, ref.location, (C04_covers_unknown hk h r u _).2 ⟨⟨a, defines_owner hu h1⟩,
        ⟨pre, ref, post, e1, e2, rfl, e3⟩, fun tr htr c hc hh => none tr htr c hc hh.2⟩, rfl⟩

end

namespace Sides

variable {g g' : Graph} (hk : Keyed g) (hk' : Keyed g') (hs : SameMentions g g')

theorem symm (hs : SameMentions g g') : SameMentions g' g where
  relations := hs.relations.symm
  artefacts a := by
    rcases hs.artefacts a with ⟨h1, h2⟩ | ⟨art, art', h1, h2, h3, h4⟩
    · exact .inl ⟨h2, h1⟩
    · exact .inr ⟨art', art, h2, h1, h3.symm, fun k => (h4 k).symm⟩
  mentions u l := (hs.mentions u l).symm

theorem has {g g' : Graph} (hk' : Keyed g') (hs : SameMentions g g') {a : ArtefactId} {k : RequirementId} (h : HasId g a k) :
    HasId g' a k := by
  obtain ⟨r, ⟨art, h1, h2⟩, rfl⟩ := h
  rcases hs.artefacts a with ⟨h3, -⟩ | ⟨art1, art', h3, h4, -, h5⟩
  · rw [h1] at h3; cases h3
  · rw [h1] at h3
    cases h3
    have := h5 r.id
    rw [h2] at this
    obtain ⟨r', hr'⟩ := Option.isSome_iff_exists.1 this
    have hid := hk'.requirement _ _ h4 _ _ hr'
    exact ⟨r', ⟨art', h4, by rw [hid]; exact hr'⟩, hid⟩

include hk hk' hs in
theorem has_iff (a : ArtefactId) (k : RequirementId) : HasId g' a k ↔ HasId g a k := ⟨has hk (symm hs), has hk' hs⟩

include hk hk' hs in
theorem unique (hu : UniqueIds g) : UniqueIds g' := by
  intro a b r s h1 h2 e
  obtain ⟨r1, d1, e1⟩ := (has_iff hk hk' hs a r.id).1 ⟨r, h1, rfl⟩
  obtain ⟨s1, d2, e2⟩ := (has_iff hk hk' hs b s.id).1 ⟨s, h2, rfl⟩
  exact hu a b r1 s1 d1 d2 (by rw [e1, e2, e])

end Sides

/-- **C152** If no id is in two artefacts, and in two graphs the same requirements refer to each other, on whichever side,
then tracing gives the same coverage, the same uncovered and derived requirements, the same unused relations and the same
references that lead nowhere. -/
theorem C152_sides {g g' : Graph} (hk : Keyed g) (hk' : Keyed g') (hs : SameMentions g g') (hu : UniqueIds g)
    {tg : TracedGraph} (h : trace g = .ok tg) : ∃ tg', trace g' = .ok tg' ∧ SameCoverage tg tg' := by
  have hu' := Sides.unique hk hk' hs hu
  have htr := ((trace_ok_iff hk tg).1 h).1
  have htr' : Traceable g' := by
    intro rel hrel
    rw [hs.relations] at hrel
    obtain ⟨art, h1, h2⟩ := htr rel hrel
    rcases hs.artefacts rel.upper with ⟨h3, -⟩ | ⟨art1, art', h3, h4, -, h5⟩
    · rw [h1] at h3; cases h3
    · rw [h1] at h3
      cases h3
      refine ⟨art', h4, fun hne a ha => ?_⟩
      have : art.requirements.values ≠ [] := by
        obtain ⟨r, hr⟩ := List.exists_mem_of_ne_nil _ hne
        obtain ⟨k, hr⟩ := (BMap.mem_values_iff _ _).1 hr
        have := h5 k
        rw [hr] at this
        obtain ⟨r', hr'⟩ := Option.isSome_iff_exists.1 this.symm
        exact List.ne_nil_of_mem ((BMap.mem_values_iff _ _).2 ⟨k, hr'⟩)
      have := h2 this a ha
      rcases hs.artefacts a with ⟨h6, -⟩ | ⟨_, _, _, h6, -⟩
      · rw [h6] at this; cases this
      · rw [h6]; rfl
  obtain ⟨tg', h'⟩ : ∃ tg', trace g' = .ok tg' := ⟨traced g', (trace_ok_iff hk' _).2 ⟨htr', rfl⟩⟩
  have hl : ∀ {g : Graph} {tg : TracedGraph}, Keyed g → trace g = .ok tg → tg.tracedRelations.map (·.relation) = g.relations := by
    intro g tg hk h
    exact (C11_frame hk h).2.2
  have at_i : ∀ {g : Graph} {tg : TracedGraph} (_ : Keyed g) (_ : trace g = .ok tg) {i : Nat} {tr : TracedRelation},
      tg.tracedRelations[i]? = some tr → g.relations[i]? = some tr.relation := by
    intro g tg hk h i tr hi
    rw [← hl hk h, List.getElem?_map, hi]; rfl
  have hlen : tg'.tracedRelations.length = tg.tracedRelations.length := by
    rw [← List.length_map (f := (·.relation)), hl hk' h', hs.relations, ← hl hk h, List.length_map]
  have hpairs : ∀ (i : Nat) (tr tr' : TracedRelation), tg.tracedRelations[i]? = some tr → tg'.tracedRelations[i]? = some tr' →
      tr'.relation = tr.relation ∧ ∀ u l, IsCovered tr' u l ↔ IsCovered tr u l := by
    intro i tr tr' hi hi'
    have hr := at_i hk h hi
    have hr' := at_i hk' h' hi'
    have e : tr'.relation = tr.relation := by
      rw [hs.relations, hr] at hr'
      exact (Option.some.inj hr').symm
    refine ⟨e, fun u l => ?_⟩
    rw [C152_exact hk hu h hi hr, C152_exact hk' hu' h' hi' hr', hs.mentions, e, Sides.has_iff hk hk' hs]
    simp only [Sides.has_iff hk hk' hs]
  have covered : ∀ u l, (∃ tr ∈ tg'.tracedRelations, IsCovered tr u l) ↔ ∃ tr ∈ tg.tracedRelations, IsCovered tr u l := by
    intro u l
    constructor
    · rintro ⟨tr', h1, h2⟩
      obtain ⟨i, hi, rfl⟩ := List.getElem_of_mem h1
      have hi0 : i < tg.tracedRelations.length := hlen ▸ hi
      exact ⟨_, List.getElem_mem hi0, ((hpairs i _ _ (List.getElem?_eq_getElem hi0) (List.getElem?_eq_getElem hi)).2 u l).1 h2⟩
    · rintro ⟨tr, h1, h2⟩
      obtain ⟨i, hi, rfl⟩ := List.getElem_of_mem h1
      have hi' : i < tg'.tracedRelations.length := hlen.symm ▸ hi
      exact ⟨_, List.getElem_mem hi', ((hpairs i _ _ (List.getElem?_eq_getElem hi) (List.getElem?_eq_getElem hi')).2 u l).2 h2⟩
  have ext : ∀ {l l' : List RequirementId}, l.Pairwise (fun a b => compare a b = .lt) →
      l'.Pairwise (fun a b => compare a b = .lt) → (∀ x, x ∈ l' ↔ x ∈ l) → l' = l := by
    intro l l' h1 h2 h3
    refine BMap.sorted_ext (fun a ha => lt_irrefl_cmp ha) (fun a b h1 h2 => ?_) h2 h1 h3
    exact lt_irrefl_cmp (Std.TransCmp.lt_trans h1 h2)
  refine ⟨tg', h', hlen, ?_, ?_, ?_, ?_, ?_⟩
  · intro i tr tr' hi hi'
    obtain ⟨e, hp⟩ := hpairs i tr tr' hi hi'
    refine ⟨e, hp, ?_⟩
    obtain ⟨art, a1, a2, a3⟩ := C02_uncovered_complement hk h (List.mem_of_getElem? hi)
    obtain ⟨art', b1, b2, b3⟩ := C02_uncovered_complement hk' h' (List.mem_of_getElem? hi')
    refine ext a2 b2 fun id => ?_
    rw [a3, b3]
    rcases hs.artefacts tr.relation.upper with ⟨h3, -⟩ | ⟨art1, art2, h3, h4, -, h5⟩
    · rw [a1] at h3; cases h3
    · rw [a1] at h3
      rw [e, h4] at b1
      cases h3
      cases b1
      refine and_congr ?_ ?_
      · rw [← Option.isSome_iff_exists, ← Option.isSome_iff_exists, h5 id]
      · constructor
        · intro h6 c hc e
          obtain ⟨c', h7, h8, -⟩ := (hp c.upper c.lower).2 ⟨c, hc, rfl, rfl⟩
          exact h6 c' h7 (h8.trans e)
        · intro h6 c hc e
          obtain ⟨c', h7, h8, -⟩ := (hp c.upper c.lower).1 ⟨c, hc, rfl, rfl⟩
          exact h6 c' h7 (h8.trans e)
  · intro a
    rcases hs.artefacts a with ⟨h3, h4⟩ | ⟨art, art', h3, h4, h5, h6⟩
    · obtain ⟨-, rfl⟩ := (trace_ok_iff hk tg).1 h
      obtain ⟨-, rfl⟩ := (trace_ok_iff hk' tg').1 h'
      show (derivedMap g').get a = (derivedMap g).get a
      unfold derivedMap
      rw [get_ofList_map, get_ofList_map, h3, h4]; rfl
    · obtain ⟨d, d1, d2, d3⟩ := C03_derived_exact hk h h3
      obtain ⟨d', e1, e2, e3⟩ := C03_derived_exact hk' h' h4
      rw [d1, e1]
      refine congrArg some (ext d2 e2 fun id => ?_)
      rw [d3, e3, h5]
      refine and_congr_right fun _ => and_congr ?_ ?_
      · have key : ∀ {g : Graph}, UniqueIds g → ((∃ r, Owns g a r ∧ r.id = id) ↔ HasId g a id) := fun hu =>
          ⟨fun ⟨r, h1, h2⟩ => ⟨r, h1.1, h2⟩, fun ⟨r, h1, h2⟩ => ⟨r, defines_owner hu h1, h2⟩⟩
        rw [key hu, key hu', Sides.has_iff hk hk' hs]
      · constructor
        · intro h7 tr htr c hc e
          obtain ⟨tr', h8, c', h9, -, h10⟩ := (covered c.upper c.lower).2 ⟨tr, htr, c, hc, rfl, rfl⟩
          exact h7 tr' h8 c' h9 (h10.trans e)
        · intro h7 tr htr c hc e
          obtain ⟨tr', h8, c', h9, -, h10⟩ := (covered c.upper c.lower).1 ⟨tr, htr, c, hc, rfl, rfl⟩
          exact h7 tr' h8 c' h9 (h10.trans e)
  · have key : ∀ {g : Graph} {tg : TracedGraph}, Keyed g → trace g = .ok tg → ∀ rel, .unusedRelation rel ∈ tg.errors ↔
        ∃ tr ∈ tg.tracedRelations, tr.covered = [] ∧ tr.relation = rel := by
      intro g tg hk h rel
      have := C09_unused_relation hk h
      have h2 : rel ∈ tg.errors.filterMap (fun e => match e with
        | .unusedRelation rel => some rel
        | _ => none) ↔ .unusedRelation rel ∈ tg.errors := by
        rw [List.mem_filterMap]
        constructor
        · rintro ⟨e, h1, h2⟩
          cases e <;> simp at h2
          subst h2
          exact h1
        · intro h1; exact ⟨_, h1, rfl⟩
      refine h2.symm.trans ((Iff.of_eq (congrArg (rel ∈ ·) this)).trans ?_)
      simp [and_assoc]
    intro rel
    rw [key hk h, key hk' h']
    have nil : ∀ (i : Nat) (tr tr' : TracedRelation), tg.tracedRelations[i]? = some tr → tg'.tracedRelations[i]? = some tr' →
        (tr'.covered = [] ↔ tr.covered = []) := by
      intro i tr tr' hi hi'
      have hp := (hpairs i tr tr' hi hi').2
      rw [List.eq_nil_iff_forall_not_mem, List.eq_nil_iff_forall_not_mem]
      constructor
      · intro h6 c hc
        obtain ⟨c', h7, -⟩ := (hp c.upper c.lower).2 ⟨c, hc, rfl, rfl⟩
        exact h6 c' h7
      · intro h6 c hc
        obtain ⟨c', h7, -⟩ := (hp c.upper c.lower).1 ⟨c, hc, rfl, rfl⟩
        exact h6 c' h7
    constructor
    · rintro ⟨tr', h1, h2, rfl⟩
      obtain ⟨i, hi, rfl⟩ := List.getElem_of_mem h1
      have hi0 : i < tg.tracedRelations.length := hlen ▸ hi
      have a := List.getElem?_eq_getElem hi0
      have b := List.getElem?_eq_getElem hi
      exact ⟨_, List.getElem_mem hi0, (nil i _ _ a b).1 h2, (hpairs i _ _ a b).1.symm⟩
    · rintro ⟨tr, h1, h2, rfl⟩
      obtain ⟨i, hi, rfl⟩ := List.getElem_of_mem h1
      have hi' : i < tg'.tracedRelations.length := hlen.symm ▸ hi
      have a := List.getElem?_eq_getElem hi
      have b := List.getElem?_eq_getElem hi'
      exact ⟨_, List.getElem_mem hi', (nil i _ _ a b).2 h2, (hpairs i _ _ a b).1⟩
  · intro u l
    rw [C152_unknown hk hu h, C152_unknown hk' hu' h', hs.mentions, hs.relations]
    simp only [Sides.has_iff hk hk' hs]
  · intro r s
    exact ⟨(C08_none_iff_unique hk h).2 hu r s, (C08_none_iff_unique hk' h').2 hu' r s⟩

/-- **C152** So, if nothing is wrong with titles, jobs find fault in the one exactly if they do in the other. -/
theorem C152_verdict {c c' : Controller} (hk : Keyed c.graph) (hk' : Keyed c'.graph) (h : trace c.graph = .ok c.tracedGraph)
    (h' : trace c'.graph = .ok c'.tracedGraph) (hs : SameMentions c.graph c'.graph) (hu : UniqueIds c.graph)
    (hp : ParseProblem c'.graph.artefacts ↔ ParseProblem c.graph.artefacts)
    (ht : ∀ e ∈ c.tracedGraph.errors, ¬ AboutTitle e) (ht' : ∀ e ∈ c'.tracedGraph.errors, ¬ AboutTitle e) (job : Job) :
    Detects c' job ↔ Detects c job := by
  obtain ⟨tg', h1, hc⟩ := C152_sides hk hk' hs hu h
  rw [h'] at h1
  cases h1
  unfold Detects
  split
  · have a1 : c.tracedGraph.artefacts = c.graph.artefacts := (C11_frame hk h).1
    have a2 : c'.tracedGraph.artefacts = c'.graph.artefacts := (C11_frame hk' h').1
    have some_error : ∀ {g : Graph} {tg : TracedGraph}, Keyed g → trace g = .ok tg → (∀ e ∈ tg.errors, ¬ AboutTitle e) →
        (∀ r s, .duplicateRequirement r s ∉ tg.errors) →
        ((∃ e, e ∈ tg.errors) ↔ (∃ rel, .unusedRelation rel ∈ tg.errors) ∨ ∃ u l, IsUnknown tg u l) := by
      intro g tg hk h ht hd
      constructor
      · rintro ⟨e, he⟩
        have h1 := ht e he
        obtain ⟨_, rfl⟩ := (trace_ok_iff hk tg).1 h
        have h2 := (mem_errors hk e).1 he
        rcases h2 with ⟨r, s, rfl, -⟩ | ⟨rel, -, ⟨ev, -, h3⟩ | ⟨-, rfl⟩⟩ | ⟨r, u, ref, rfl, -⟩ | ⟨r, u, ref, rfl, -⟩
        · exact absurd he (hd r s)
        · unfold titleErrors at h3
          split at h3 <;> split at h3 <;> simp at h3 <;> (subst h3; exact absurd trivial h1)
        · exact .inl ⟨_, he⟩
        · exact .inr ⟨u, r.id, .inl ⟨_, _, he, rfl⟩⟩
        · exact .inr ⟨r.id, u, .inr ⟨_, _, he, rfl⟩⟩
      · rintro (⟨rel, h⟩ | ⟨u, l, ⟨r, loc, h, -⟩ | ⟨r, loc, h, -⟩⟩) <;> exact ⟨_, h⟩
    unfold TraceProblem
    rw [a1, a2, some_error hk h ht (fun r s => (hc.duplicate r s).1), some_error hk' h' ht' (fun r s => (hc.duplicate r s).2)]
    refine or_congr ?_ (or_congr hp (or_congr ?_ ?_))
    · simp only [hc.unused, hc.unknown]
    · have hl := hc.length
      constructor
      · rintro ⟨tr, h1, h2⟩
        obtain ⟨i, hi, rfl⟩ := List.getElem_of_mem h1
        have hi0 : i < c.tracedGraph.tracedRelations.length := hl ▸ hi
        have := (hc.relations i _ _ (List.getElem?_eq_getElem hi0) (List.getElem?_eq_getElem hi)).2.2
        exact ⟨_, List.getElem_mem hi0, by rw [← this]; exact h2⟩
      · rintro ⟨tr, h1, h2⟩
        obtain ⟨i, hi, rfl⟩ := List.getElem_of_mem h1
        have hi' : i < c'.tracedGraph.tracedRelations.length := hl.symm ▸ hi
        have := (hc.relations i _ _ (List.getElem?_eq_getElem hi) (List.getElem?_eq_getElem hi')).2.2
        exact ⟨_, List.getElem_mem hi', by rw [this]; exact h2⟩
    · simp only [hc.derived]
  · exact hp

/-- **C152** So two projects with the same configuration, in which the same requirements refer to each other, have the same
exit code, if their reports can be written. -/
theorem C152_exit {env : Env} {w w' : World} {opt : Arguments} {config : Config} {c c' : Controller}
    (hg : GoodConfig env w opt.configFile config) (hg' : GoodConfig env w' opt.configFile config)
    (hn : Controller.new env w config opt.baseDir = .ok c) (hn' : Controller.new env w' config opt.baseDir = .ok c')
    (hs : SameMentions c.graph c'.graph) (hu : UniqueIds c.graph)
    (hp : ParseProblem c'.graph.artefacts ↔ ParseProblem c.graph.artefacts)
    (ht : ∀ e ∈ c.tracedGraph.errors, ¬ AboutTitle e) (ht' : ∀ e ∈ c'.tracedGraph.errors, ¬ AboutTitle e)
    (h : (Main.main env opt w).1 ≤ 1) (h' : (Main.main env opt w').1 ≤ 1) :
    (Main.main env opt w').1 = (Main.main env opt w).1 := by
  have det := C152_verdict (C18_consistent hn).1 (C18_consistent hn').1 (C18_no_panic hn).1 (C18_no_panic hn').1 hs hu hp ht ht'
  have key : ∀ {d d' js js' v v'}, AllRun env opt w d js v → AllRun env opt w' d' js' v' →
      (Detected d' js' ↔ Detected d js) := by
    rintro d d' js js' v v' ⟨cfg, h1, h2, -, h3, -⟩ ⟨cfg', h1', h2', -, h3', -⟩
    cases GoodConfig_unique h1 hg
    cases GoodConfig_unique h1' hg'
    rw [hn] at h2
    rw [hn'] at h2'
    cases h2
    cases h2'
    have hmem : ∀ j, j ∈ js' ↔ j ∈ js := fun j => (h3'.mem j).trans (h3.mem j).symm
    unfold Detected
    simp only [hmem, det]
  obtain ⟨a0, a1, -⟩ := C28_exit_code_partial env opt w
  obtain ⟨b0, b1, -⟩ := C28_exit_code_partial env opt w'
  have e : ∀ n : Nat, n ≤ 1 → n = 0 ∨ n = 1 := by omega
  rcases e _ h with x | x <;> rcases e _ h' with y | y
  · rw [x, y]
  · obtain ⟨c, js, v, p1, p2⟩ := a0.1 x
    obtain ⟨c', js', v', q1, q2⟩ := b1.1 y
    exact absurd ((key p1 q1).1 q2) p2
  · obtain ⟨c, js, v, p1, p2⟩ := a1.1 x
    obtain ⟨c', js', v', q1, q2⟩ := b0.1 y
    exact absurd ((key p1 q1).2 p2) q2
  · rw [x, y]

/-! ## Cases -/

namespace SidesExample

/-- What requirements say about each other. -/
def mentions (g : Graph) : List (RequirementId × RequirementId) :=
  g.artefacts.values.flatMap fun art => art.requirements.values.flatMap fun r =>
    r.depends.map (fun ref => (r.id, ref.id)) ++ r.covers.map (fun ref => (ref.id, r.id))

theorem mem_mentions {g : Graph} (hk : Keyed g) (u l : RequirementId) : (u, l) ∈ mentions g ↔ Mentions g u l := by
  unfold mentions Mentions
  simp only [List.mem_flatMap, List.mem_append, List.mem_map, BMap.mem_values_iff, Prod.mk.injEq]
  constructor
  · rintro ⟨art, ⟨a, ha⟩, r, ⟨k, hr⟩, ⟨ref, h1, h2, h3⟩ | ⟨ref, h1, h2, h3⟩⟩
    · exact .inl ⟨a, r, ref, ⟨art, ha, by rw [hk.requirement _ _ ha _ _ hr]; exact hr⟩, h2, h1, h3⟩
    · exact .inr ⟨a, r, ref, ⟨art, ha, by rw [hk.requirement _ _ ha _ _ hr]; exact hr⟩, h3, h1, h2⟩
  · rintro (⟨a, r, ref, ⟨art, ha, hr⟩, h2, h1, h3⟩ | ⟨a, r, ref, ⟨art, ha, hr⟩, h3, h1, h2⟩)
    · exact ⟨art, ⟨a, ha⟩, r, ⟨_, hr⟩, .inl ⟨ref, h1, h2, h3⟩⟩
    · exact ⟨art, ⟨a, ha⟩, r, ⟨_, hr⟩, .inr ⟨ref, h1, h2, h3⟩⟩

/-- Decides `SameMentions`. -/
def check (g g' : Graph) : Bool :=
  decide (g'.relations = g.relations) &&
  decide (g'.artefacts.entries.map (fun e => (e.1, e.2.ignoreDerivedRequirements, e.2.requirements.keys)) =
    g.artefacts.entries.map (fun e => (e.1, e.2.ignoreDerivedRequirements, e.2.requirements.keys))) &&
  (mentions g').all (fun p => (mentions g).contains p) && (mentions g).all (fun p => (mentions g').contains p)

theorem same_of_check {g g' : Graph} (hk : Keyed g) (hk' : Keyed g') (h : check g g' = true) : SameMentions g g' := by
  unfold check at h
  simp only [Bool.and_eq_true, decide_eq_true_eq, List.all_eq_true, List.contains_iff_mem] at h
  obtain ⟨⟨⟨h1, h2⟩, h3⟩, h4⟩ := h
  have keys : g'.artefacts.keys = g.artefacts.keys := by
    have := congrArg (List.map (·.1)) h2
    simpa [List.map_map, Function.comp_def, BMap.keys] using this
  refine ⟨h1, fun a => ?_, fun u l => ?_⟩
  · cases ha : g.artefacts.get a with
    | none =>
      refine .inl ⟨rfl, ?_⟩
      have h5 : a ∉ g'.artefacts.keys := by
        rw [keys, BMap.mem_keys_iff_isSome, ha]; simp
      rw [BMap.mem_keys_iff_isSome] at h5
      simpa using h5
    | some art =>
      have h5 := (BMap.get_eq_some_iff _ _ _).1 ha
      have h6 : (a, art.ignoreDerivedRequirements, art.requirements.keys) ∈
          g'.artefacts.entries.map (fun e => (e.1, e.2.ignoreDerivedRequirements, e.2.requirements.keys)) := by
        rw [h2]; exact List.mem_map.2 ⟨_, h5, rfl⟩
      obtain ⟨⟨b, art'⟩, h7, h8⟩ := List.mem_map.1 h6
      simp only [Prod.mk.injEq] at h8
      obtain ⟨rfl, h9, h10⟩ := h8
      refine .inr ⟨art, art', rfl, (BMap.get_eq_some_iff _ _ _).2 h7, h9, fun k => ?_⟩
      rw [Bool.eq_iff_iff, ← BMap.mem_keys_iff_isSome, ← BMap.mem_keys_iff_isSome, h10]
  · rw [← mem_mentions hk', ← mem_mentions hk]
    exact ⟨h3 _, h4 _⟩

open Example

/-- `U1` depends on `L1`, `L2` covers `U1`; `X` and `Y` are nowhere. -/
def before : Graph :=
  ⟨.ofList [(c!"LO", art c!"LO" false false [req c!"L1" none [ref c!"Y" none 3] [], req c!"L2" none [ref c!"U1" none 4] [], l3]),
      (c!"UP", art c!"UP" true false [req c!"U1" none [] [ref c!"L1" none 1, ref c!"X" none 2], u2])],
    [⟨c!"UP", [c!"LO"]⟩, ⟨c!"LO", [c!"UP"]⟩]⟩

/-- The two that lead somewhere moved to the other side. -/
def after : Graph :=
  ⟨.ofList [(c!"LO", art c!"LO" false false [req c!"L1" none [ref c!"Y" none 3, ref c!"U1" none 5] [], req c!"L2" none [] [], l3]),
      (c!"UP", art c!"UP" true false [req c!"U1" none [] [ref c!"L2" none 1, ref c!"X" none 2], u2])],
    [⟨c!"UP", [c!"LO"]⟩, ⟨c!"LO", [c!"UP"]⟩]⟩

theorem before_keyed : Keyed before := keyed_of_check (by decide +kernel)
theorem after_keyed : Keyed after := keyed_of_check (by decide +kernel)
theorem same : SameMentions before after := same_of_check before_keyed after_keyed (by decide +kernel)
theorem unique : UniqueIds before := ReportExample.unique_of_check (by decide +kernel)

/-- What is found in the first. -/
theorem before_traced : trace before = .ok
    { artefacts := before.artefacts
      tracedRelations := [
        ⟨⟨c!"UP", [c!"LO"]⟩, [⟨c!"U1", c!"L1", loc 1, .downwards⟩, ⟨c!"U1", c!"L2", loc 4, .upwards⟩], [c!"U2"]⟩,
        ⟨⟨c!"LO", [c!"UP"]⟩, [], [c!"L1", c!"L2", c!"L3"]⟩]
      derived := .ofList [(c!"LO", [c!"L3"]), (c!"UP", [])]
      errors := [.unusedRelation ⟨c!"LO", [c!"UP"]⟩, .coversUnknownRequirement (req c!"L1" none [ref c!"Y" none 3] []) c!"Y" (loc 3),
        .dependOnUnknownRequirement (req c!"U1" none [] [ref c!"L1" none 1, ref c!"X" none 2]) c!"X" (loc 2)] } := by
  decide +kernel

/-- The second gives the same but for directions. -/
example : ∀ tg, trace before = .ok tg → ∃ tg', trace after = .ok tg' ∧ SameCoverage tg tg' :=
  fun _ h => C152_sides before_keyed after_keyed same unique h

example : ∃ tg', trace after = .ok tg' ∧ (tg'.tracedRelations.map (·.covered)) =
    [[⟨c!"U1", c!"L2", loc 1, .downwards⟩, ⟨c!"U1", c!"L1", loc 5, .upwards⟩], []] ∧
    (tg'.tracedRelations.map (·.uncovered)) = [[c!"U2"], [c!"L1", c!"L2", c!"L3"]] := by
  refine ⟨_, (trace_ok_iff after_keyed _).2 ⟨?_, rfl⟩, by decide +kernel, by decide +kernel⟩
  have : (trace after).isOk = true := by decide +kernel
  cases h : trace after with
  | error e => rw [h] at this; cases this
  | ok tg => exact ((trace_ok_iff after_keyed tg).1 h).1

/-- That no id is in two artefacts is needed: here `U1` is in `A` and in `B`, and only `B` is above `LO`. -/
def twice (up low : List Reference) : Graph :=
  ⟨.ofList [(c!"A", art c!"A" true false [req c!"U1" none [] up]), (c!"B", art c!"B" true false [req c!"U1" none [] []]),
      (c!"LO", art c!"LO" false false [req c!"L1" none low []])],
    [⟨c!"B", [c!"LO"]⟩]⟩

theorem twice_same : SameMentions (twice [] [ref c!"U1" none 1]) (twice [ref c!"L1" none 2] []) :=
  same_of_check (keyed_of_check (by decide +kernel)) (keyed_of_check (by decide +kernel)) (by decide +kernel)

theorem twice_differ :
    (trace (twice [] [ref c!"U1" none 1])).toOption.map (fun tg => tg.tracedRelations.map (·.uncovered)) = some [[]] ∧
    (trace (twice [ref c!"L1" none 2] [])).toOption.map (fun tg => tg.tracedRelations.map (·.uncovered)) = some [[c!"U1"]] := by
  decide +kernel

/-! A project with two Markdown files, in which a line moves from the one to the other. -/

open CtrlExample

def config : Config where
  version := some 0
  artefacts := [⟨c!"UP", [c!"up.md"], .markdown, none, none⟩, ⟨c!"LO", [c!"lo.md"], .markdown, none, none⟩]
  relations := [⟨c!"UP", [c!"LO"]⟩]
  jobs := some (BMap.ofList [(c!"trace", ⟨.trace, .gnuError, c!"-", none⟩)])
  defaultJobs := some [c!"trace"]

def w : World := world [(c!"requirements.toml", c!"..."),
  (c!"p/up.md", c!"# U1: one\nDepends: L1\n# U2: two\n"), (c!"p/lo.md", c!"# L1: low\nCovers: U2\n")]

def w' : World := world [(c!"requirements.toml", c!"..."),
  (c!"p/up.md", c!"# U1: one\n# U2: two\nDepends: L1\n"), (c!"p/lo.md", c!"# L1: low\nCovers: U1\n")]

def e : Env := CtrlExample.env .nil config

/-- All that `C152_exit` asks for, decided. -/
def fine (c : Controller) (c' : Controller) : Bool :=
  keyedCheck c.graph && keyedCheck c'.graph && check c.graph c'.graph && ReportExample.uniqueCheck c.graph &&
  c.tracedGraph.errors.isEmpty && c'.tracedGraph.errors.isEmpty &&
  c.graph.artefacts.entries.all (fun x => x.2.errors.isEmpty) && c'.graph.artefacts.entries.all (fun x => x.2.errors.isEmpty) &&
  (c.tracedGraph.tracedRelations.map (·.covered.map (fun x => (x.upper, x.lower, x.direction))) ==
    [[(c!"U1", c!"L1", .downwards), (c!"U2", c!"L1", .upwards)]]) &&
  (c'.tracedGraph.tracedRelations.map (·.covered.map (fun x => (x.upper, x.lower, x.direction))) ==
    [[(c!"U1", c!"L1", .upwards), (c!"U2", c!"L1", .downwards)]])

theorem project_fine : (match Controller.new e w config c!"p", Controller.new e w' config c!"p" with
    | .ok c, .ok c' => fine c c'
    | _, _ => false) = true := by decide +kernel

example : (Main.main e ⟨c!"requirements.toml", c!"p", []⟩ w').1 = (Main.main e ⟨c!"requirements.toml", c!"p", []⟩ w).1 := by
  have h := project_fine
  cases h1 : Controller.new e w config c!"p" with
  | error x => rw [h1] at h; cases h
  | ok c =>
    cases h2 : Controller.new e w' config c!"p" with
    | error x => rw [h1, h2] at h; cases h
    | ok c' =>
      rw [h1, h2] at h
      simp only [fine, Bool.and_eq_true, List.isEmpty_iff, List.all_eq_true] at h
      obtain ⟨⟨⟨⟨⟨⟨⟨⟨⟨k1, k2⟩, k3⟩, k4⟩, k5⟩, k6⟩, k7⟩, k8⟩, -⟩, -⟩ := h
      have no : ∀ {c : Controller}, (∀ x ∈ c.graph.artefacts.entries, x.2.errors = []) → ¬ ParseProblem c.graph.artefacts := by
        rintro c hc ⟨a, art, x, h1, h2⟩
        rw [hc _ ((BMap.get_eq_some_iff _ _ _).1 h1)] at h2
        cases h2
      exact C152_exit (config := config)
        ⟨⟨Utf8.encode c!"...", none⟩, _, by decide +kernel, rfl, rfl, (C78_config _ _).1 rfl, fun v hv => by cases hv; rfl⟩
        ⟨⟨Utf8.encode c!"...", none⟩, _, by decide +kernel, rfl, rfl, (C78_config _ _).1 rfl, fun v hv => by cases hv; rfl⟩
        h1 h2 (same_of_check (keyed_of_check k1) (keyed_of_check k2) k3) (ReportExample.unique_of_check k4)
        ⟨fun h => absurd h (no k8), fun h => absurd h (no k7)⟩ (by rw [k5]; simp) (by rw [k6]; simp)
        (by decide +kernel) (by decide +kernel)

end SidesExample

end Reqtrace
