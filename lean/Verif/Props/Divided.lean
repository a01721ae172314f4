import Verif.Spec.Divided
import Verif.Props.Patterns
import Verif.Props.Jobs
import Verif.Props.Reimport
import Verif.Props.Rerun
import Verif.Props.Unrelated

/-!
# C155: how requirements are divided among the lower artefacts does not matter
-/

namespace Reqtrace

open Spec

namespace Divided

theorem pairs_imp {α β : Type} {P Q : α → β → Prop} (hP : ∀ a b, P a b → Q a b) {as : List α} {bs : List β}
    (h : Pairs P as bs) : Pairs Q as bs := by
  induction h with
  | nil => exact .nil
  | cons h _ ih => exact .cons (hP _ _ h) ih

theorem pairs_of_map {α β γ δ : Type} {P : α → β → Prop} {Q : γ → δ → Prop} {k : α → γ} {l : β → δ} (hP : ∀ a b, P a b → Q (k a) (l b))
    {as : List α} {bs : List β} (h : Pairs P as bs) : Pairs Q (as.map k) (bs.map l) := by
  induction h with
  | nil => exact .nil
  | cons h _ ih => exact .cons (hP _ _ h) ih

theorem pairs_mem {α β : Type} {P : α → β → Prop} {as : List α} {bs : List β}
    (h : Pairs P as bs) : Pairs (fun a b => P a b ∧ a ∈ as ∧ b ∈ bs) as bs := by
  induction h with
  | nil => exact .nil
  | cons h _ ih =>
    exact .cons ⟨h, by simp, by simp⟩ (pairs_imp (fun a b ⟨h1, h2, h3⟩ => ⟨h1, by simp [h2], by simp [h3]⟩) ih)

section
variable {f : ArtefactId → ArtefactId} {g g' : Graph} (hd : Divides f g g') (hu' : UniqueIds g')
include hd hu'

theorem unique : UniqueIds g := by
  intro a b r s h1 h2 e
  obtain ⟨a', rfl, h3⟩ := (hd.defines _ _).1 h1
  obtain ⟨b', rfl, h4⟩ := (hd.defines _ _).1 h2
  rw [hu' a' b' r s h3 h4 e]

theorem owns (a : ArtefactId) (r : Requirement) : Owns g a r ↔ ∃ b, f b = a ∧ Owns g' b r := by
  constructor
  · intro h
    obtain ⟨b, h1, h2⟩ := (hd.defines _ _).1 h.1
    exact ⟨b, h1, defines_owner hu' h2⟩
  · rintro ⟨b, h1, h2⟩
    exact defines_owner (unique hd hu') ((hd.defines _ _).2 ⟨b, h1, h2.1⟩)

omit hu' in
theorem upper {rel rel' : Relation} (hr : RelationDivided f g g' rel rel') (r : Requirement) :
    Defines g rel.upper r ↔ Defines g' rel'.upper r := by
  rw [hd.defines]
  constructor
  · rintro ⟨b, h1, h2⟩
    rw [← hr.whole b r h2 h1]; exact h2
  · intro h
    exact ⟨_, hr.upper, h⟩

theorem establishes {rel rel' : Relation} (hr : RelationDivided f g g' rel rel') {a : ArtefactId} {u l : Requirement}
    {ref : Reference} {d : CoverageDirection} :
    Establishes g rel a u l ref d ↔ ∃ b, f b = a ∧ Establishes g' rel' b u l ref d := by
  constructor
  · intro h
    cases h with
    | down h1 h2 h3 h4 h5 =>
      obtain ⟨b, rfl, h6⟩ := (owns hd hu' _ _).1 h3
      obtain ⟨art, ha, -⟩ := h6.1
      exact ⟨b, rfl, .down ((upper hd hr _).1 h1) ((hr.lower b art ha).2 h2) h6 h4 h5⟩
    | up h1 h2 h3 h4 h5 =>
      obtain ⟨b, rfl, h6⟩ := (owns hd hu' _ _).1 h3
      obtain ⟨art, ha, -⟩ := h6.1
      exact ⟨b, rfl, .up ((upper hd hr _).1 h1) ((hr.lower b art ha).2 h2) h6 h4 h5⟩
  · rintro ⟨b, rfl, h⟩
    cases h with
    | down h1 h2 h3 h4 h5 =>
      obtain ⟨art, ha, -⟩ := h3.1
      exact .down ((upper hd hr _).2 h1) ((hr.lower b art ha).1 h2) ((owns hd hu' _ _).2 ⟨b, rfl, h3⟩) h4 h5
    | up h1 h2 h3 h4 h5 =>
      obtain ⟨art, ha, -⟩ := h3.1
      exact .up ((upper hd hr _).2 h1) ((hr.lower b art ha).1 h2) ((owns hd hu' _ _).2 ⟨b, rfl, h3⟩) h4 h5

end

/-- The coverages of a relation. -/
theorem mem_covered {g : Graph} {tg : TracedGraph} (hk : Keyed g) (h : trace g = .ok tg) {rel : Relation} (hr : rel ∈ g.relations) (c : Coverage) :
    c ∈ (tracedRelation g rel).covered ↔ ∃ a u l ref, Establishes g rel a u l ref c.direction ∧
      c = ⟨u.id, l.id, ref.location, c.direction⟩ := by
  obtain ⟨i, hi⟩ := List.getElem?_of_mem hr
  have h1 : tg.tracedRelations[i]? = some (tracedRelation g rel) := by
    obtain ⟨-, rfl⟩ := (trace_ok_iff hk tg).1 h
    simp [traced, hi]
  rw [C01_coverage_exact hk h h1]
  constructor
  · rintro ⟨rel', a, u, l, ref, h2, h3⟩
    rw [hi] at h2
    cases h2
    exact ⟨a, u, l, ref, h3⟩
  · rintro ⟨a, u, l, ref, h3⟩
    exact ⟨rel, a, u, l, ref, hi, h3⟩

end Divided

open Divided

/-- **C155** If no id is in two artefacts, and requirements of lower artefacts are divided among several, or those of several
put into one, tracing gives the same coverages along each relation, the same uncovered requirements, the same derived ones
but in the artefacts in which they now are, and the same errors. -/
theorem C155_divided {f : ArtefactId → ArtefactId} {g g' : Graph} {tg tg' : TracedGraph} (hk : Keyed g) (hk' : Keyed g')
    (hd : Divides f g g') (hu' : UniqueIds g') (h : trace g = .ok tg) (h' : trace g' = .ok tg') : SameDivided f tg tg' := by
  have hu := unique hd hu'
  have ext : ∀ {l l' : List RequirementId}, l.Pairwise (fun a b => compare a b = .lt) →
      l'.Pairwise (fun a b => compare a b = .lt) → (∀ x, x ∈ l' ↔ x ∈ l) → l' = l := by
    intro l l' h1 h2 h3
    refine BMap.sorted_ext (fun a ha => lt_irrefl_cmp ha) (fun a b h1 h2 => ?_) h2 h1 h3
    exact lt_irrefl_cmp (Std.TransCmp.lt_trans h1 h2)
  have e1 : tg.tracedRelations = g.relations.map (tracedRelation g) := by
    obtain ⟨-, rfl⟩ := (trace_ok_iff hk tg).1 h; rfl
  have e2 : tg'.tracedRelations = g'.relations.map (tracedRelation g') := by
    obtain ⟨-, rfl⟩ := (trace_ok_iff hk' tg').1 h'; rfl
  have cov : ∀ {rel rel' : Relation}, RelationDivided f g g' rel rel' → rel ∈ g.relations → rel' ∈ g'.relations →
      ∀ c, c ∈ (tracedRelation g' rel').covered ↔ c ∈ (tracedRelation g rel).covered := by
    intro rel rel' hr h1 h2 c
    rw [mem_covered hk h h1, mem_covered hk' h' h2]
    constructor
    · rintro ⟨b, u, l, ref, h3, h4⟩
      exact ⟨f b, u, l, ref, (establishes hd hu' hr).2 ⟨b, rfl, h3⟩, h4⟩
    · rintro ⟨a, u, l, ref, h3, h4⟩
      obtain ⟨b, -, h5⟩ := (establishes hd hu' hr).1 h3
      exact ⟨b, u, l, ref, h5, h4⟩
  have hpair := pairs_mem hd.relations
  have anyc : ∀ P : Coverage → Prop, (∀ tr ∈ tg'.tracedRelations, ∀ c ∈ tr.covered, P c) ↔
      ∀ tr ∈ tg.tracedRelations, ∀ c ∈ tr.covered, P c := by
    intro P
    rw [e1, e2]
    constructor
    · intro hh tr htr c hc
      obtain ⟨rel, hrel, rfl⟩ := List.mem_map.1 htr
      obtain ⟨rel', -, h1, h2, h3⟩ := Reimport.pairs_left hpair rel hrel
      exact hh _ (List.mem_map_of_mem h3) c ((cov h1 h2 h3 c).2 hc)
    · intro hh tr htr c hc
      obtain ⟨rel', hrel, rfl⟩ := List.mem_map.1 htr
      obtain ⟨rel, -, h1, h2, h3⟩ := Reimport.pairs_right hpair rel' hrel
      exact hh _ (List.mem_map_of_mem h2) c ((cov h1 h2 h3 c).1 hc)
  have owned_iff : ∀ r, (∃ a, Owns g' a r) ↔ ∃ a, Owns g a r := by
    intro r
    constructor
    · rintro ⟨b, hb⟩; exact ⟨f b, (owns hd hu' _ _).2 ⟨b, rfl, hb⟩⟩
    · rintro ⟨a, ha⟩
      obtain ⟨b, -, hb⟩ := (owns hd hu' _ _).1 ha
      exact ⟨b, hb⟩
  have est : ∀ (P : Requirement → Requirement → Reference → Prop) (d : CoverageDirection),
      (∃ rel ∈ g'.relations, ∃ a u l ref, Establishes g' rel a u l ref d ∧ P u l ref) ↔
      ∃ rel ∈ g.relations, ∃ a u l ref, Establishes g rel a u l ref d ∧ P u l ref := by
    intro P d
    constructor
    · rintro ⟨rel', hrel, b, u, l, ref, h1, h2⟩
      obtain ⟨rel, -, h3, h4, h5⟩ := Reimport.pairs_right hpair rel' hrel
      exact ⟨rel, h4, f b, u, l, ref, (establishes hd hu' h3).2 ⟨b, rfl, h1⟩, h2⟩
    · rintro ⟨rel, hrel, a, u, l, ref, h1, h2⟩
      obtain ⟨rel', -, h3, h4, h5⟩ := Reimport.pairs_left hpair rel hrel
      obtain ⟨b, -, h6⟩ := (establishes hd hu' h3).1 h1
      exact ⟨rel', h5, b, u, l, ref, h6, h2⟩
  refine ⟨?_, ?_, ?_⟩
  · rw [e1, e2]
    refine pairs_of_map ?_ hpair
    rintro rel rel' ⟨hr, h1, h2⟩
    refine ⟨cov hr h1 h2, ?_⟩
    obtain ⟨art, a1, a2, a3⟩ := C02_uncovered_complement hk h (tr := tracedRelation g rel) (by rw [e1]; exact List.mem_map_of_mem h1)
    obtain ⟨art', b1, b2, b3⟩ := C02_uncovered_complement hk' h' (tr := tracedRelation g' rel') (by rw [e2]; exact List.mem_map_of_mem h2)
    refine ext a2 b2 fun id => ?_
    rw [a3, b3]
    refine and_congr ?_ ?_
    · have key : ∀ {g : Graph} {a : ArtefactId} {art : Artefact}, Keyed g → g.artefacts.get a = some art →
          ((∃ r, art.requirements.get id = some r) ↔ ∃ r, Defines g a r ∧ r.id = id) := by
        intro g a art hk ha
        constructor
        · rintro ⟨r, hr⟩
          have := hk.requirement _ _ ha _ _ hr
          exact ⟨r, ⟨art, ha, by rw [this]; exact hr⟩, this⟩
        · rintro ⟨r, ⟨art', h1, h2⟩, rfl⟩
          rw [ha] at h1
          cases h1
          exact ⟨r, h2⟩
      rw [key hk a1, key hk' b1]
      simp only [show (tracedRelation g rel).relation = rel from rfl, show (tracedRelation g' rel').relation = rel' from rfl,
        upper hd hr]
    · simp only [cov hr h1 h2]
  · intro a id
    constructor
    · rintro ⟨d, h1, h2⟩
      have ha : ∃ art, g.artefacts.get a = some art := by
        have := (BMap.mem_keys_iff_isSome tg.derived a).2 (by rw [h1]; rfl)
        rw [(C11_frame hk h).2.1, BMap.mem_keys_iff_isSome] at this
        exact Option.isSome_iff_exists.1 this
      obtain ⟨art, ha⟩ := ha
      obtain ⟨d', d1, -, d3⟩ := C03_derived_exact hk h ha
      rw [h1] at d1
      cases d1
      obtain ⟨h3, ⟨r, h4, rfl⟩, h5⟩ := (d3 id).1 h2
      obtain ⟨b, rfl, h6⟩ := (owns hd hu' _ _).1 h4
      obtain ⟨art', ha', -⟩ := h6.1
      obtain ⟨d', d1, -, d3⟩ := C03_derived_exact hk' h' ha'
      obtain ⟨art1, s1, s2, -⟩ := hd.settings b art' ha'
      rw [ha] at s1
      cases s1
      exact ⟨b, d', rfl, d1, (d3 _).2 ⟨s2.trans h3, ⟨r, h6, rfl⟩, (anyc _).2 h5⟩⟩
    · rintro ⟨b, d, rfl, h1, h2⟩
      have ha : ∃ art, g'.artefacts.get b = some art := by
        have := (BMap.mem_keys_iff_isSome tg'.derived b).2 (by rw [h1]; rfl)
        rw [(C11_frame hk' h').2.1, BMap.mem_keys_iff_isSome] at this
        exact Option.isSome_iff_exists.1 this
      obtain ⟨art', ha'⟩ := ha
      obtain ⟨d', d1, -, d3⟩ := C03_derived_exact hk' h' ha'
      rw [h1] at d1
      cases d1
      obtain ⟨h3, ⟨r, h4, rfl⟩, h5⟩ := (d3 id).1 h2
      obtain ⟨art, ha, s2, -⟩ := hd.settings b art' ha'
      obtain ⟨d', d1, -, d3⟩ := C03_derived_exact hk h ha
      exact ⟨d', d1, (d3 _).2 ⟨s2.symm.trans h3, ⟨r, (owns hd hu' _ _).2 ⟨b, rfl, h4⟩, rfl⟩, (anyc _).1 h5⟩⟩
  · have kinds : ∀ {g : Graph} {tg : TracedGraph} (_ : Keyed g) (_ : trace g = .ok tg) {e : Error}, e ∈ tg.errors →
        (∃ r s, e = .duplicateRequirement r s) ∨ (∃ u l t loc, e = .coveredWithWrongTitle u l t loc) ∨
        (∃ u l t loc, e = .dependWithWrongTitle u l t loc) ∨ (∃ r loc, e = .referencedWithoutTitle r loc) ∨
        (∃ rel, e = .unusedRelation rel) ∨ (∃ r u loc, e = .coversUnknownRequirement r u loc) ∨
        ∃ r l loc, e = .dependOnUnknownRequirement r l loc := by
      intro g tg hk h e he
      obtain ⟨-, rfl⟩ := (trace_ok_iff hk tg).1 h
      rcases (mem_errors hk e).1 he with ⟨r, s, rfl, -⟩ | ⟨rel, -, ⟨ev, -, h3⟩ | ⟨-, rfl⟩⟩ | ⟨r, u, ref, rfl, -⟩ | ⟨r, u, ref, rfl, -⟩
      · exact .inl ⟨r, s, rfl⟩
      · unfold titleErrors at h3
        split at h3 <;> split at h3 <;> simp at h3 <;> subst h3 <;> simp
      · simp
      · simp
      · simp
    have dup : ∀ r s, .duplicateRequirement r s ∉ tg.errors ∧ .duplicateRequirement r s ∉ tg'.errors := fun r s =>
      ⟨(C08_none_iff_unique hk h).2 hu r s, (C08_none_iff_unique hk' h').2 hu' r s⟩
    have same : ∀ e, ((∃ u l t loc, e = .coveredWithWrongTitle u l t loc) ∨
        (∃ u l t loc, e = .dependWithWrongTitle u l t loc) ∨ (∃ r loc, e = .referencedWithoutTitle r loc) ∨
        (∃ r u loc, e = .coversUnknownRequirement r u loc) ∨ ∃ r l loc, e = .dependOnUnknownRequirement r l loc) →
        (e ∈ tg'.errors ↔ e ∈ tg.errors) := by
      rintro e (⟨u, l, t, loc, rfl⟩ | ⟨u, l, t, loc, rfl⟩ | ⟨r, loc, rfl⟩ | ⟨r, u, loc, rfl⟩ | ⟨r, l, loc, rfl⟩)
      · rw [C06_covers_title hk h, C06_covers_title hk' h']
        have := est (fun u' l' ref => u' = u ∧ l' = l ∧ ref.title = some t ∧ u.title ≠ some t ∧ ref.location = loc) .upwards
        constructor
        · rintro ⟨rel, h1, a, ref, h2, h3⟩
          obtain ⟨rel1, i1, a1, u, l, ref1, i2, rfl, rfl, i3⟩ := this.1 ⟨rel, h1, a, u, l, ref, h2, rfl, rfl, h3⟩
          exact ⟨rel1, i1, a1, ref1, i2, i3⟩
        · rintro ⟨rel, h1, a, ref, h2, h3⟩
          obtain ⟨rel1, i1, a1, u, l, ref1, i2, rfl, rfl, i3⟩ := this.2 ⟨rel, h1, a, u, l, ref, h2, rfl, rfl, h3⟩
          exact ⟨rel1, i1, a1, ref1, i2, i3⟩
      · rw [C06_depends_title hk h, C06_depends_title hk' h']
        have := est (fun u' l' ref => u' = u ∧ l' = l ∧ ref.title = some t ∧ l.title ≠ some t ∧ ref.location = loc) .downwards
        constructor
        · rintro ⟨rel, h1, a, ref, h2, h3⟩
          obtain ⟨rel1, i1, a1, u, l, ref1, i2, rfl, rfl, i3⟩ := this.1 ⟨rel, h1, a, u, l, ref, h2, rfl, rfl, h3⟩
          exact ⟨rel1, i1, a1, ref1, i2, i3⟩
        · rintro ⟨rel, h1, a, ref, h2, h3⟩
          obtain ⟨rel1, i1, a1, u, l, ref1, i2, rfl, rfl, i3⟩ := this.2 ⟨rel, h1, a, u, l, ref, h2, rfl, rfl, h3⟩
          exact ⟨rel1, i1, a1, ref1, i2, i3⟩
      · rw [C07_untitled hk h, C07_untitled hk' h']
        constructor
        · rintro ⟨rel', h1, b, u, l, ref, d, art', h2, h3, h4, h5, h6⟩
          obtain ⟨rel, -, h7, h8, h9⟩ := Reimport.pairs_right hpair rel' h1
          have h10 := (establishes hd hu' h7).2 ⟨b, rfl, h2⟩
          rcases h6 with ⟨rfl, h6, rfl⟩ | ⟨rfl, h6, rfl⟩
          · obtain ⟨art, s1, -, s2⟩ := hd.settings _ _ h6
            exact ⟨rel, h8, _, _, _, _, _, art, h10, h3, h4, s2.symm.trans h5, .inl ⟨rfl, s1, rfl⟩⟩
          · obtain ⟨art, s1, -, s2⟩ := hd.settings _ _ h6
            rw [h7.upper] at s1
            exact ⟨rel, h8, _, _, _, _, _, art, h10, h3, h4, s2.symm.trans h5, .inr ⟨rfl, s1, rfl⟩⟩
        · rintro ⟨rel, h1, a, u, l, ref, d, art, h2, h3, h4, h5, h6⟩
          obtain ⟨rel', -, h7, h8, h9⟩ := Reimport.pairs_left hpair rel h1
          obtain ⟨b, rfl, h10⟩ := (establishes hd hu' h7).1 h2
          rcases h6 with ⟨rfl, h6, rfl⟩ | ⟨rfl, h6, rfl⟩
          · have : ∃ art', g'.artefacts.get b = some art' := by
              cases h10 with
              | down _ _ h11 => obtain ⟨art', h12, -⟩ := h11.1; exact ⟨art', h12⟩
            obtain ⟨art', ha'⟩ := this
            obtain ⟨art1, s1, -, s2⟩ := hd.settings _ _ ha'
            rw [h6] at s1
            cases s1
            exact ⟨rel', h9, _, _, _, _, _, art', h10, h3, h4, s2.trans h5, .inl ⟨rfl, ha', rfl⟩⟩
          · have : ∃ art', g'.artefacts.get rel'.upper = some art' := by
              cases h10 with
              | up h11 => obtain ⟨art', h12, -⟩ := h11; exact ⟨art', h12⟩
            obtain ⟨art', ha'⟩ := this
            obtain ⟨art1, s1, -, s2⟩ := hd.settings _ _ ha'
            rw [h7.upper, h6] at s1
            cases s1
            exact ⟨rel', h9, _, _, _, _, _, art', h10, h3, h4, s2.trans h5, .inr ⟨rfl, ha', rfl⟩⟩
      · rw [C04_covers_unknown hk h, C04_covers_unknown hk' h', owned_iff, anyc]
      · rw [C05_depends_unknown hk h, C05_depends_unknown hk' h', owned_iff, anyc]
    intro e hne
    constructor
    · intro he
      rcases kinds hk' h' he with ⟨r, s, rfl⟩ | hh | hh | hh | ⟨rel, rfl⟩ | hh | hh
      · exact absurd he (dup r s).2
      · exact (same e (.inl hh)).1 he
      · exact (same e (.inr (.inl hh))).1 he
      · exact (same e (.inr (.inr (.inl hh)))).1 he
      · exact absurd rfl (hne rel)
      · exact (same e (.inr (.inr (.inr (.inl hh))))).1 he
      · exact (same e (.inr (.inr (.inr (.inr hh))))).1 he
    · intro he
      rcases kinds hk h he with ⟨r, s, rfl⟩ | hh | hh | hh | ⟨rel, rfl⟩ | hh | hh
      · exact absurd he (dup r s).1
      · exact (same e (.inl hh)).2 he
      · exact (same e (.inr (.inl hh))).2 he
      · exact (same e (.inr (.inr (.inl hh)))).2 he
      · exact absurd rfl (hne rel)
      · exact (same e (.inr (.inr (.inr (.inl hh))))).2 he
      · exact (same e (.inr (.inr (.inr (.inr hh))))).2 he

/-- **C155** So jobs find fault in the one exactly if they do in the other. -/
theorem C155_verdict {f : ArtefactId → ArtefactId} {g g' : Graph} {tg tg' : TracedGraph} (hk : Keyed g) (hk' : Keyed g')
    (hd : Divides f g g') (hu' : UniqueIds g') (h : trace g = .ok tg) (h' : trace g' = .ok tg')
    (hp : ParseProblem g'.artefacts ↔ ParseProblem g.artefacts) : TraceProblem tg' ↔ TraceProblem tg := by
  have hs := C155_divided hk hk' hd hu' h h'
  have unused : ∀ {g : Graph} {tg : TracedGraph}, Keyed g → trace g = .ok tg → ((∃ rel, .unusedRelation rel ∈ tg.errors) ↔
      ∃ tr ∈ tg.tracedRelations, tr.covered = []) := by
    intro g tg hk h
    have := C09_unused_relation hk h
    have h2 : ∀ rel, rel ∈ tg.errors.filterMap (fun e => match e with
      | .unusedRelation rel => some rel
      | _ => none) ↔ .unusedRelation rel ∈ tg.errors := by
      intro rel
      rw [List.mem_filterMap]
      constructor
      · rintro ⟨e, h1, h2⟩
        cases e <;> simp at h2
        subst h2
        exact h1
      · intro h1; exact ⟨_, h1, rfl⟩
    constructor
    · rintro ⟨rel, hr⟩
      have h3 := (Iff.of_eq (congrArg (rel ∈ ·) this)).1 ((h2 rel).2 hr)
      obtain ⟨tr, h4, -⟩ := List.mem_map.1 h3
      obtain ⟨h4, h5⟩ := List.mem_filter.1 h4
      exact ⟨tr, h4, List.isEmpty_iff.1 h5⟩
    · rintro ⟨tr, h4, h5⟩
      refine ⟨tr.relation, (h2 _).1 ((Iff.of_eq (congrArg (tr.relation ∈ ·) this)).2 (List.mem_map.2 ⟨tr, List.mem_filter.2 ⟨h4, ?_⟩, rfl⟩))⟩
      rw [h5]; rfl
  have hnil : ∀ {tr tr' : TracedRelation}, SameRelation tr tr' → (tr'.covered = [] ↔ tr.covered = []) := by
    intro tr tr' hr
    rw [List.eq_nil_iff_forall_not_mem, List.eq_nil_iff_forall_not_mem]
    simp only [hr.1]
  have herr : (∃ e, e ∈ tg'.errors) ↔ ∃ e, e ∈ tg.errors := by
    have split : ∀ {es : List Error}, (∃ e, e ∈ es) ↔ (∃ rel, .unusedRelation rel ∈ es) ∨ ∃ e ∈ es, ∀ rel, e ≠ .unusedRelation rel := by
      intro es
      constructor
      · rintro ⟨e, he⟩
        by_cases hh : ∃ rel, e = .unusedRelation rel
        · obtain ⟨rel, rfl⟩ := hh
          exact .inl ⟨rel, he⟩
        · exact .inr ⟨e, he, fun rel e => hh ⟨rel, e⟩⟩
      · rintro (⟨rel, h⟩ | ⟨e, h, -⟩)
        · exact ⟨_, h⟩
        · exact ⟨_, h⟩
    rw [split, split, unused hk h, unused hk' h']
    refine or_congr ?_ ?_
    · constructor
      · rintro ⟨tr', h1, h2⟩
        obtain ⟨tr, h3, h4⟩ := Reimport.pairs_right hs.relations tr' h1
        exact ⟨tr, h3, (hnil h4).1 h2⟩
      · rintro ⟨tr, h1, h2⟩
        obtain ⟨tr', h3, h4⟩ := Reimport.pairs_left hs.relations tr h1
        exact ⟨tr', h3, (hnil h4).2 h2⟩
    · constructor
      · rintro ⟨e, h1, h2⟩; exact ⟨e, (hs.errors e h2).1 h1, h2⟩
      · rintro ⟨e, h1, h2⟩; exact ⟨e, (hs.errors e h2).2 h1, h2⟩
  unfold TraceProblem
  rw [(C11_frame hk h).1, (C11_frame hk' h').1, herr, hp]
  refine or_congr_right (or_congr_right (or_congr ?_ ?_))
  · constructor
    · rintro ⟨tr', h1, h2⟩
      obtain ⟨tr, h3, h4⟩ := Reimport.pairs_right hs.relations tr' h1
      exact ⟨tr, h3, by rw [← h4.2]; exact h2⟩
    · rintro ⟨tr, h1, h2⟩
      obtain ⟨tr', h3, h4⟩ := Reimport.pairs_left hs.relations tr h1
      exact ⟨tr', h3, by rw [h4.2]; exact h2⟩
  · constructor
    · rintro ⟨b, d, id, h1, h2⟩
      obtain ⟨d', h3, h4⟩ := (hs.derived (f b) id).2 ⟨b, d, rfl, h1, h2⟩
      exact ⟨f b, d', id, h3, h4⟩
    · rintro ⟨a, d, id, h1, h2⟩
      obtain ⟨b, d', -, h3, h4⟩ := (hs.derived a id).1 ⟨d, h1, h2⟩
      exact ⟨b, d', id, h3, h4⟩

namespace Divided

theorem lastEntry_iff (config : Config) (ac : ArtefactConfig) :
    LastEntry config ac ↔ (config.artefacts.filter (fun b => b.id = ac.id)).getLast? = some ac := by
  constructor
  · rintro ⟨pre, post, e, h⟩
    rw [e, List.filter_append, List.filter_cons_of_pos (by simp), List.filter_eq_nil_iff (l := post) |>.2 (by simpa using h)]
    simp
  · intro h
    obtain ⟨ys, e⟩ := List.getLast?_eq_some_iff.1 h
    obtain ⟨l1, l2, e1, -, e3⟩ := List.filter_eq_append_iff.1 e
    obtain ⟨m1, m2, f1, -, -, f4⟩ := List.filter_eq_cons_iff.1 e3
    refine ⟨l1 ++ m1, m2, by rw [e1, f1]; simp, ?_⟩
    simpa using List.filter_eq_nil_iff.1 f4

section
variable {env : Env} {w : World} {base : Path} {config : Config} {ac : ArtefactConfig} {n1 n2 : ArtefactId} {ps qs : List Str}
  (hm : MayDivide env w base config ac n1 n2 ps qs)
include hm

theorem mem_artefacts (b : ArtefactConfig) : b ∈ (divideConfig ac.id n1 n2 ps qs config).artefacts ↔
    b = { ac with id := n1, paths := ps } ∨ b = { ac with id := n2, paths := qs } ∨ (b ∈ config.artefacts ∧ b.id ≠ ac.id) := by
  unfold divideConfig
  simp only [List.mem_flatMap]
  constructor
  · rintro ⟨x, h1, h2⟩
    split at h2
    · rename_i e
      cases hm.once x h1 e
      simp only [List.mem_cons, List.not_mem_nil, or_false] at h2
      rcases h2 with h2 | h2
      · exact .inl h2
      · exact .inr (.inl h2)
    · simp only [List.mem_cons, List.not_mem_nil, or_false] at h2
      subst h2
      exact .inr (.inr ⟨h1, by assumption⟩)
  · rintro (rfl | rfl | ⟨h1, h2⟩)
    · exact ⟨ac, hm.entry, by simp⟩
    · exact ⟨ac, hm.entry, by simp⟩
    · exact ⟨b, h1, by simp [h2]⟩

omit hm in
/-- What is in a lower list. -/
theorem mem_lower (rel : Relation) (b : ArtefactId) : b ∈ (divideRelation ac.id n1 n2 rel).lower ↔
    (ac.id ∈ rel.lower ∧ (b = n1 ∨ b = n2)) ∨ (b ∈ rel.lower ∧ b ≠ ac.id) := by
  unfold divideRelation
  simp only [List.mem_flatMap]
  constructor
  · rintro ⟨x, h1, h2⟩
    split at h2
    · rename_i e
      subst e
      exact .inl ⟨h1, by simpa using h2⟩
    · rename_i e
      simp only [List.mem_cons, List.not_mem_nil, or_false] at h2
      subst h2
      exact .inr ⟨h1, e⟩
  · rintro (⟨h1, h2⟩ | ⟨h1, h2⟩)
    · exact ⟨_, h1, by simpa using h2⟩
    · exact ⟨b, h1, by simp [h2]⟩

theorem configured (b : ArtefactId) : Configured (divideConfig ac.id n1 n2 ps qs config) b ↔
    b = n1 ∨ b = n2 ∨ (Configured config b ∧ b ≠ ac.id) := by
  unfold Configured
  constructor
  · rintro ⟨x, h1, rfl⟩
    rcases (mem_artefacts hm x).1 h1 with rfl | rfl | ⟨h1, h2⟩
    · exact .inl rfl
    · exact .inr (.inl rfl)
    · exact .inr (.inr ⟨⟨x, h1, rfl⟩, h2⟩)
  · rintro (rfl | rfl | ⟨⟨x, h1, rfl⟩, h2⟩)
    · exact ⟨_, (mem_artefacts hm _).2 (.inl rfl), rfl⟩
    · exact ⟨_, (mem_artefacts hm _).2 (.inr (.inl rfl)), rfl⟩
    · exact ⟨_, (mem_artefacts hm _).2 (.inr (.inr ⟨h1, h2⟩)), rfl⟩

/-- No other artefact has one of the new names. -/
theorem other {b : ArtefactId} (hb : Configured config b) (hne : b ≠ ac.id) : b ≠ n1 ∧ b ≠ n2 := by
  obtain ⟨x, h1, rfl⟩ := hb
  exact hm.names x h1 hne

omit hm in
theorem lastEntry (x : ArtefactConfig) (h1 : x.id ≠ n1) (h2 : x.id ≠ n2) (h3 : x.id ≠ ac.id) :
    LastEntry (divideConfig ac.id n1 n2 ps qs config) x ↔ LastEntry config x := by
  rw [lastEntry_iff, lastEntry_iff]
  have : (divideConfig ac.id n1 n2 ps qs config).artefacts.filter (fun b => b.id = x.id) =
      config.artefacts.filter (fun b => b.id = x.id) := by
    unfold divideConfig
    simp only
    generalize config.artefacts = l
    induction l with
    | nil => rfl
    | cons y l ih =>
      rw [List.flatMap_cons, List.filter_append, ih, List.filter_cons]
      by_cases hy : y.id = ac.id
      · rw [if_pos hy, if_neg (by rw [hy]; simpa using fun e => h3 e.symm), List.filter_cons_of_neg (by simpa using fun e => h1 e.symm),
          List.filter_cons_of_neg (by simpa using fun e => h2 e.symm)]
        rfl
      · rw [if_neg hy]
        by_cases hx : y.id = x.id
        · simp [hx]
        · simp [hx]
  rw [this]

theorem lastEntry_first : LastEntry (divideConfig ac.id n1 n2 ps qs config) { ac with id := n1, paths := ps } := by
  obtain ⟨x, h1, h2⟩ := lastEntry_exists ((configured hm n1).2 (.inl rfl))
  have hx : x ∈ (divideConfig ac.id n1 n2 ps qs config).artefacts := by
    obtain ⟨_, _, e, _⟩ := h1; rw [e]; simp
  rcases (mem_artefacts hm x).1 hx with rfl | rfl | ⟨h3, h4⟩
  · exact h1
  · exact absurd h2.symm hm.different
  · exact absurd h2 (hm.names x h3 h4).1

theorem lastEntry_second : LastEntry (divideConfig ac.id n1 n2 ps qs config) { ac with id := n2, paths := qs } := by
  obtain ⟨x, h1, h2⟩ := lastEntry_exists ((configured hm n2).2 (.inr (.inl rfl)))
  have hx : x ∈ (divideConfig ac.id n1 n2 ps qs config).artefacts := by
    obtain ⟨_, _, e, _⟩ := h1; rw [e]; simp
  rcases (mem_artefacts hm x).1 hx with rfl | rfl | ⟨h3, h4⟩
  · exact absurd h2 hm.different
  · exact h1
  · exact absurd h2 (hm.names x h3 h4).2

theorem lastEntry_whole : LastEntry config ac := by
  obtain ⟨x, h1, h2⟩ := lastEntry_exists ⟨ac, hm.entry, rfl⟩
  have hx : x ∈ config.artefacts := by
    obtain ⟨_, _, e, _⟩ := h1; rw [e]; simp
  cases hm.once x hx h2
  exact h1

omit hm in
theorem isRoot_other {b : ArtefactId} (h1 : b ≠ n1) (h2 : b ≠ n2) (h3 : b ≠ ac.id) :
    IsRoot (divideConfig ac.id n1 n2 ps qs config) b ↔ IsRoot config b := by
  unfold IsRoot
  show (∀ rel ∈ config.relations.map (divideRelation ac.id n1 n2), _) ↔ _
  simp only [List.forall_mem_map, mem_lower, h1, h2, h3, or_self, and_false, false_or, ne_eq, not_false_iff, and_true]

theorem isRoot_piece (hrc : RelationsConfigured config) {b : ArtefactId} (hb : b = n1 ∨ b = n2) :
    IsRoot (divideConfig ac.id n1 n2 ps qs config) b ↔ IsRoot config ac.id := by
  unfold IsRoot
  show (∀ rel ∈ config.relations.map (divideRelation ac.id n1 n2), _) ↔ _
  simp only [List.forall_mem_map, mem_lower]
  constructor
  · intro h rel hr hl
    exact h rel hr (.inl ⟨hl, hb⟩)
  · rintro h rel hr (⟨h1, -⟩ | ⟨h1, h2⟩)
    · exact h rel hr h1
    · obtain ⟨y1, y2⟩ := other hm ((hrc rel hr).2 b h1) h2
      rcases hb with rfl | rfl
      · exact y1 rfl
      · exact y2 rfl

end

/-- What is read for a Rust artefact. -/
structure RustArt (env : Env) (w : World) (config : Config) (b : ArtefactConfig) (fs : List Path) (art : Artefact) : Prop where
  get : ∀ id, art.requirements.get id = (fs.flatMap (requirementsIn env w .rust)).find? (fun r => r.id = id)
  errors : art.errors = [] ↔ fs.flatMap (errorsIn env w .rust) = [] ∧ ((fs.flatMap (requirementsIn env w .rust)).map (·.id)).Nodup ∧
    (b.referenceWithTitle = some true → ∀ id r, art.requirements.get id = some r → r.title ≠ none)
  ignore : art.ignoreDerivedRequirements = true ↔ b.ignoreDerivedRequirements = some true ∨
    b.ignoreDerivedRequirements = none ∧ IsRoot config b.id
  title : art.referenceWithTitle = true ↔ b.referenceWithTitle = some true

theorem rust_art {env : Env} {w : World} {config : Config} {base : Path} {c : Controller} {b : ArtefactConfig} {fs : List Path}
    (h : Controller.new env w config base = .ok c) (hl : LastEntry config b) (hr : b.parser = .rust) (hne : b.paths ≠ [])
    (hm : Matched env w base b.paths fs) : ∃ art, c.graph.artefacts.get b.id = some art ∧ RustArt env w config b fs art := by
  have hc : Configured config b.id := by
    obtain ⟨_, _, e, _⟩ := hl
    exact ⟨b, by rw [e]; simp, rfl⟩
  obtain ⟨art, ha⟩ := Option.isSome_iff_exists.1 ((BMap.mem_keys_iff_isSome _ _).1 (((C18_no_panic h).2.2.1 _).1 hc))
  refine ⟨art, ha, ?_⟩
  obtain ⟨x, errs, x1, x2, x3, x4, x5⟩ := C20_appended h ha
  cases lastEntry_unique x1 hl x2
  obtain ⟨y, y1, y2, y3, y4⟩ := C19_default_root h ha
  cases lastEntry_unique y1 hl y2
  obtain ⟨-, z1, z2, -⟩ := rust_parsed hr hne hm x3
  refine ⟨z1, ?_, ?_, x4⟩
  · rw [x5, z2, List.append_eq_nil_iff, List.append_eq_nil_iff, duplicates_nil_iff, and_assoc]
    refine and_congr_right fun _ => and_congr_right fun _ => ?_
    split
    · rename_i ht
      simp only [List.map_eq_nil_iff, List.filter_eq_nil_iff, BMap.mem_values_iff, decide_eq_true_eq, ht, forall_const]
      constructor
      · intro h id r hr; exact h r ⟨id, hr⟩
      · rintro h r ⟨id, hr⟩; exact h id r hr
    · rename_i ht
      simp [ht]
  · cases hi : b.ignoreDerivedRequirements with
    | none => simp [y4 hi]
    | some v => simp [y3 v hi]

end Divided

/-- **C155** Dividing the paths of a Rust artefact among two artefacts divides its requirements, and neither brings nor hides
errors of reading, provided that no requirement is in both. -/
theorem C155_project {env : Env} {w : World} {config : Config} {base : Path} {c : Controller} {ac : ArtefactConfig}
    {n1 n2 : ArtefactId} {ps qs : List Str} (h : Controller.new env w config base = .ok c)
    (hm : MayDivide env w base config ac n1 n2 ps qs) :
    ∃ c', Controller.new env w (divideConfig ac.id n1 n2 ps qs config) base = .ok c' ∧ (UniqueIds c'.graph →
      Divides (undivide ac.id n1 n2) c.graph c'.graph ∧ (ParseProblem c'.graph.artefacts ↔ ParseProblem c.graph.artefacts)) := by
  obtain ⟨fs, hfs⟩ := hm.searched
  have hfs' := hfs
  rw [hm.paths, matched_append] at hfs'
  obtain ⟨f1, f2, rfl, m1, m2⟩ := hfs'
  obtain ⟨hrc, hall⟩ := (C18_returns_iff env w config base).1 ⟨c, h⟩
  have hne : ac.paths ≠ [] := by rw [hm.paths]; simp [hm.some.1]
  obtain ⟨v, hv⟩ := hall ac hm.entry
  have hok := ((parseArtefact_filesOf (.inl ⟨hm.parser, hne, hfs⟩) v).1 hv).1
  have hret : ∃ c', Controller.new env w (divideConfig ac.id n1 n2 ps qs config) base = .ok c' := by
    rw [C18_returns_iff]
    constructor
    · intro rel hr
      obtain ⟨rel, hrel, rfl⟩ := List.mem_map.1 hr
      obtain ⟨x1, x2⟩ := hrc rel hrel
      refine ⟨(Divided.configured hm _).2 (.inr (.inr ⟨x1, hm.leaf rel hrel⟩)), fun b hb => ?_⟩
      rw [Divided.configured hm]
      rcases (Divided.mem_lower rel b).1 hb with ⟨-, rfl | rfl⟩ | ⟨y1, y2⟩
      · exact .inl rfl
      · exact .inr (.inl rfl)
      · exact .inr (.inr ⟨x2 b y1, y2⟩)
    · intro b hb
      rcases (Divided.mem_artefacts hm b).1 hb with rfl | rfl | ⟨h1, -⟩
      · exact ⟨_, (parseArtefact_filesOf (ac := { ac with id := n1, paths := ps }) (.inl ⟨hm.parser, hm.some.1, m1⟩) _).2 ⟨fun p hp => hok p (List.mem_append_left _ hp), rfl⟩⟩
      · exact ⟨_, (parseArtefact_filesOf (ac := { ac with id := n2, paths := qs }) (.inl ⟨hm.parser, hm.some.2, m2⟩) _).2 ⟨fun p hp => hok p (List.mem_append_right _ hp), rfl⟩⟩
      · exact hall b h1
  obtain ⟨c', h'⟩ := hret
  refine ⟨c', h', fun hu => ?_⟩
  have hf1 : undivide ac.id n1 n2 n1 = ac.id := by simp [undivide]
  have hf2 : undivide ac.id n1 n2 n2 = ac.id := by simp [undivide]
  have hf : ∀ {b}, b ≠ n1 → b ≠ n2 → undivide ac.id n1 n2 b = b := by
    intro b h1 h2; simp [undivide, h1, h2]
  obtain ⟨art, ha, hart⟩ := Divided.rust_art h (Divided.lastEntry_whole hm) hm.parser hne hfs
  obtain ⟨a1, ha1, hart1⟩ := Divided.rust_art h' (Divided.lastEntry_first hm) hm.parser hm.some.1 m1
  obtain ⟨a2, ha2, hart2⟩ := Divided.rust_art h' (Divided.lastEntry_second hm) hm.parser hm.some.2 m2
  simp only at ha1 ha2
  have conf : ∀ {b x}, c.graph.artefacts.get b = some x → Configured config b := by
    intro b x hb
    rw [(C18_no_panic h).2.2.1, BMap.mem_keys_iff_isSome, hb]; rfl
  have conf' : ∀ {b x}, c'.graph.artefacts.get b = some x → Configured (divideConfig ac.id n1 n2 ps qs config) b := by
    intro b x hb
    rw [(C18_no_panic h').2.2.1, BMap.mem_keys_iff_isSome, hb]; rfl
  have same : ∀ b x, b ≠ n1 → b ≠ n2 → b ≠ ac.id → (c'.graph.artefacts.get b = some x ↔ c.graph.artefacts.get b = some x) := by
    intro b x e1 e2 e3
    obtain ⟨g, hg, rfl⟩ := (C82_controller env w config base c).1 h
    obtain ⟨g', hg', rfl⟩ := (C82_controller env w _ base c').1 h'
    simp only
    rw [hg.artefacts, hg'.artefacts]
    apply exists_congr
    intro y
    constructor
    · rintro ⟨h1, rfl, r, e, u, h2⟩
      exact ⟨(Divided.lastEntry y e1 e2 e3).1 h1, rfl, r, e, u, (isArtefact_root (Divided.isRoot_other e1 e2 e3)).1 h2⟩
    · rintro ⟨h1, rfl, r, e, u, h2⟩
      exact ⟨(Divided.lastEntry y e1 e2 e3).2 h1, rfl, r, e, u, (isArtefact_root (Divided.isRoot_other e1 e2 e3)).2 h2⟩
  have kinds : ∀ {b x}, c'.graph.artefacts.get b = some x → b = n1 ∨ b = n2 ∨ (b ≠ n1 ∧ b ≠ n2 ∧ b ≠ ac.id) := by
    intro b x hb
    rcases (Divided.configured hm b).1 (conf' hb) with rfl | rfl | ⟨h1, h2⟩
    · exact .inl rfl
    · exact .inr (.inl rfl)
    · obtain ⟨e1, e2⟩ := Divided.other hm h1 h2
      exact .inr (.inr ⟨e1, e2, h2⟩)
  have disj : ∀ {id r s}, a1.requirements.get id = some r → a2.requirements.get id = some s → False := by
    intro id r s hr hs
    have k := (C18_consistent h').1
    have k1 := k.2 _ _ ha1 _ _ hr
    have k2 := k.2 _ _ ha2 _ _ hs
    refine hm.different (hu n1 n2 r s ⟨a1, ha1, by rw [k1]; exact hr⟩ ⟨a2, ha2, by rw [k2]; exact hs⟩ (by rw [k1, k2]))
  have union : ∀ id r, art.requirements.get id = some r ↔ a1.requirements.get id = some r ∨ a2.requirements.get id = some r := by
    intro id r
    have e : art.requirements.get id = (a1.requirements.get id).or (a2.requirements.get id) := by
      rw [hart.get, hart1.get, hart2.get, List.flatMap_append, List.find?_append]
    rw [e]
    cases x1 : a1.requirements.get id with
    | none => simp
    | some y =>
      cases x2 : a2.requirements.get id with
      | none => simp
      | some z => exact (disj x1 x2).elim
  have hdef : ∀ r, Defines c.graph ac.id r ↔ Defines c'.graph n1 r ∨ Defines c'.graph n2 r := by
    intro r
    unfold Defines
    rw [ha, ha1, ha2]
    simp only [Option.some.injEq, exists_eq_left']
    exact union _ _
  have hroot1 := Divided.isRoot_piece hm hrc (.inl rfl : n1 = n1 ∨ n1 = n2)
  have hroot2 := Divided.isRoot_piece hm hrc (.inr rfl : n2 = n1 ∨ n2 = n2)
  refine ⟨⟨?_, ?_, ?_⟩, ?_⟩
  · intro a r
    by_cases hac : a = ac.id
    · subst hac
      rw [hdef]
      constructor
      · rintro (x | x)
        · exact ⟨n1, hf1, x⟩
        · exact ⟨n2, hf2, x⟩
      · rintro ⟨b, e, x⟩
        obtain ⟨y, hy, -⟩ := id x
        rcases kinds hy with rfl | rfl | ⟨e1, e2, e3⟩
        · exact .inl x
        · exact .inr x
        · rw [hf e1 e2] at e
          exact absurd e e3
    · constructor
      · rintro ⟨x, hx, hr⟩
        obtain ⟨e1, e2⟩ := Divided.other hm (conf hx) hac
        exact ⟨a, hf e1 e2, x, (same a x e1 e2 hac).2 hx, hr⟩
      · rintro ⟨b, e, x, hx, hr⟩
        rcases kinds hx with rfl | rfl | ⟨e1, e2, e3⟩
        · rw [hf1] at e; exact absurd e.symm hac
        · rw [hf2] at e; exact absurd e.symm hac
        · rw [hf e1 e2] at e
          subst e
          exact ⟨x, (same b x e1 e2 e3).1 hx, hr⟩
  · intro b x hx
    rcases kinds hx with rfl | rfl | ⟨e1, e2, e3⟩
    · rw [ha1] at hx
      cases hx
      refine ⟨art, by rw [hf1]; exact ha, ?_, ?_⟩
      · rw [Bool.eq_iff_iff, hart1.ignore, hart.ignore, hroot1]
      · rw [Bool.eq_iff_iff, hart1.title, hart.title]
    · rw [ha2] at hx
      cases hx
      refine ⟨art, by rw [hf2]; exact ha, ?_, ?_⟩
      · rw [Bool.eq_iff_iff, hart2.ignore, hart.ignore, hroot2]
      · rw [Bool.eq_iff_iff, hart2.title, hart.title]
    · exact ⟨x, by rw [hf e1 e2]; exact (same b x e1 e2 e3).1 hx, rfl, rfl⟩
  · rw [(C18_no_panic h).2.1, (C18_no_panic h').2.1]
    have : ∀ l : List Relation, (∀ rel ∈ l, rel ∈ config.relations) →
        Pairs (RelationDivided (undivide ac.id n1 n2) c.graph c'.graph) l (l.map (divideRelation ac.id n1 n2)) := by
      intro l
      induction l with
      | nil => intro _; exact .nil
      | cons rel l ih =>
        intro hl
        refine .cons ?_ (ih fun r hr => hl r (List.mem_cons_of_mem _ hr))
        have hr := hl rel List.mem_cons_self
        have hup := hm.leaf rel hr
        obtain ⟨x1, x2⟩ := hrc rel hr
        obtain ⟨u1, u2⟩ := Divided.other hm x1 hup
        refine ⟨hf u1 u2, ?_, ?_⟩
        · rintro b r ⟨y, hy, -⟩ e
          rcases kinds hy with rfl | rfl | ⟨e1, e2, e3⟩
          · rw [hf1] at e; exact absurd e.symm hup
          · rw [hf2] at e; exact absurd e.symm hup
          · rw [hf e1 e2] at e; exact e
        · intro b y hy
          rw [Divided.mem_lower]
          rcases kinds hy with rfl | rfl | ⟨e1, e2, e3⟩
          · rw [hf1]
            constructor
            · rintro (⟨z, -⟩ | ⟨z1, z2⟩)
              · exact z
              · exact absurd rfl (Divided.other hm (x2 _ z1) z2).1
            · intro z; exact .inl ⟨z, .inl rfl⟩
          · rw [hf2]
            constructor
            · rintro (⟨z, -⟩ | ⟨z1, z2⟩)
              · exact z
              · exact absurd rfl (Divided.other hm (x2 _ z1) z2).2
            · intro z; exact .inl ⟨z, .inr rfl⟩
          · rw [hf e1 e2]
            simp [e1, e2, e3]
    exact this _ fun _ h => h
  · have noerr : ∀ {m : BMap ArtefactId Artefact}, ¬ ParseProblem m ↔ ∀ a x, m.get a = some x → x.errors = [] := by
      intro m
      unfold ParseProblem
      constructor
      · intro hn a x hx
        exact List.eq_nil_iff_forall_not_mem.2 fun e he => hn ⟨a, x, e, hx, he⟩
      · rintro hn ⟨a, x, e, hx, he⟩
        rw [hn a x hx] at he
        cases he
    have pieces : art.errors = [] ↔ a1.errors = [] ∧ a2.errors = [] := by
      rw [hart.errors, hart1.errors, hart2.errors, List.flatMap_append, List.flatMap_append, List.append_eq_nil_iff, List.map_append,
        List.nodup_append]
      constructor
      · rintro ⟨⟨p1, p2⟩, ⟨q1, q2, -⟩, t⟩
        exact ⟨⟨p1, q1, fun ht id r hr => t ht id r ((union id r).2 (.inl hr))⟩,
          p2, q2, fun ht id r hr => t ht id r ((union id r).2 (.inr hr))⟩
      · rintro ⟨⟨p1, q1, t1⟩, p2, q2, t2⟩
        refine ⟨⟨p1, p2⟩, ⟨q1, q2, ?_⟩, ?_⟩
        · rintro x hx y hy rfl
          have found : ∀ {l : List Requirement}, x ∈ l.map (·.id) → ∃ r, l.find? (fun r => r.id = x) = some r := by
            intro l hl
            obtain ⟨r, hr, rfl⟩ := List.mem_map.1 hl
            exact Option.isSome_iff_exists.1 (List.find?_isSome.2 ⟨r, hr, by simp⟩)
          obtain ⟨r, hr⟩ := found hx
          obtain ⟨s, hs⟩ := found hy
          rw [← hart1.get] at hr
          rw [← hart2.get] at hs
          exact disj hr hs
        · intro ht id r hr
          rcases (union id r).1 hr with x | x
          · exact t1 ht id r x
          · exact t2 ht id r x
    have flip : ∀ {p q : Prop}, (¬ p ↔ ¬ q) → (p ↔ q) := fun h => ⟨fun hp => Classical.byContradiction fun hq => h.2 hq hp, fun hq => Classical.byContradiction fun hp => h.1 hp hq⟩
    apply flip
    rw [noerr, noerr]
    constructor
    · intro hn a x hx
      by_cases hac : a = ac.id
      · subst hac
        rw [ha] at hx
        cases hx
        exact pieces.2 ⟨hn _ _ ha1, hn _ _ ha2⟩
      · obtain ⟨e1, e2⟩ := Divided.other hm (conf hx) hac
        exact hn a x ((same a x e1 e2 hac).2 hx)
    · intro hn a x hx
      have hp := pieces.1 (hn _ _ ha)
      rcases kinds hx with rfl | rfl | ⟨e1, e2, e3⟩
      · rw [ha1] at hx
        cases hx
        exact hp.1
      · rw [ha2] at hx
        cases hx
        exact hp.2
      · exact hn a x ((same a x e1 e2 e3).1 hx)

/-- **C155** So the exit code is the same. -/
theorem C155_exit {env : Env} {w : World} {opt opt' : Arguments} {config : Config} {ac : ArtefactConfig}
    {n1 n2 : ArtefactId} {ps qs : List Str} (hb : opt'.baseDir = opt.baseDir) (hj : opt'.jobs = opt.jobs)
    (hg : GoodConfig env w opt.configFile config) (hg' : GoodConfig env w opt'.configFile (divideConfig ac.id n1 n2 ps qs config))
    (hm : MayDivide env w opt.baseDir config ac n1 n2 ps qs)
    (hu : ∀ c', Controller.new env w (divideConfig ac.id n1 n2 ps qs config) opt.baseDir = .ok c' → UniqueIds c'.graph)
    (h : (Main.main env opt w).1 ≤ 1) (h' : (Main.main env opt' w).1 ≤ 1) :
    (Main.main env opt' w).1 = (Main.main env opt w).1 := by
  have key : ∀ {d d' js js' v v'}, AllRun env opt w d js v → AllRun env opt' w d' js' v' →
      (Detected d' js' ↔ Detected d js) := by
    rintro d d' js js' v v' ⟨cfg, h1, h2, -, h3, -⟩ ⟨cfg', h1', h2', -, h3', -⟩
    cases GoodConfig_unique h1 hg
    cases GoodConfig_unique h1' hg'
    obtain ⟨c', k1, k2⟩ := C155_project h2 hm
    rw [hb, k1] at h2'
    cases h2'
    obtain ⟨hd, hp⟩ := k2 (hu _ k1)
    have r1 : requested (divideConfig ac.id n1 n2 ps qs config) opt' = requested config opt := by unfold requested; rw [hj]; rfl
    rw [r1] at h3'
    have hmem : ∀ j, j ∈ js' ↔ j ∈ js := fun j => (h3'.mem j).trans (h3.mem j).symm
    have det : ∀ j, Detects d' j ↔ Detects d j := by
      intro j
      unfold Detects
      split
      · exact C155_verdict (C18_consistent h2).1 (C18_consistent k1).1 hd (hu _ k1) (C18_no_panic h2).1 (C18_no_panic k1).1 hp
      · exact hp
    unfold Detected
    simp only [hmem, det]
  obtain ⟨a0, a1, -⟩ := C28_exit_code_partial env opt w
  obtain ⟨b0, b1, -⟩ := C28_exit_code_partial env opt' w
  have e : ∀ n : Nat, n ≤ 1 → n = 0 ∨ n = 1 := by omega
  rcases e _ h with x | x <;> rcases e _ h' with y | y
  · rw [x, y]
  · obtain ⟨c, js, v, p1, p2⟩ := a0.1 x
    obtain ⟨c', js', v', q1, q2⟩ := b1.1 y
    exact absurd ((key p1 q1).1 q2) p2
  · obtain ⟨c, js, v, p1, p2⟩ := a1.1 x
    obtain ⟨c', js', v', q1, q2⟩ := b0.1 y
    exact absurd ((key p1 q1).2 p2) q2
  · rw [x, y]

/-! ## Cases -/

namespace DividedExample

open CtrlExample

def code : ArtefactConfig := ⟨c!"CODE", [c!"a.rs", c!"b.rs"], .rust, none, none⟩

def config : Config where
  version := some 0
  artefacts := [⟨c!"REQ", [c!"req.md"], .markdown, none, none⟩, code]
  relations := [⟨c!"REQ", [c!"CODE"]⟩]
  jobs := some (BMap.ofList [(c!"trace", ⟨.trace, .gnuError, c!"-", none⟩)])
  defaultJobs := some [c!"trace"]

def divided : Config := divideConfig c!"CODE" c!"CODE" c!"MORE" [c!"a.rs"] [c!"b.rs"] config

/-- `fn f() { requirement_covered!(REQ_A); }` and `fn g() { requirement_covered!(…); }` -/
def tree (f id : Str) : Rs.Forest := .item (.fn f) 1 3 (.mac (RustExample.mark 1 [RustExample.ident id 1 31]) .nil) .nil

/-- The second file covers the requirement `id`. -/
def e (f id : Str) : Env := { CtrlExample.env .nil config with
  syn := { RustExample.synOf .nil with parseFile := fun t => .ok (if t = c!"a" then tree c!"f" c!"REQ_A" else tree f id) }
  tomlTree := fun b => .ok (ConfigRead.tree (if b = Utf8.encode c!"..." then config else divided)) }

def w : World := world [(c!"requirements.toml", c!"..."), (c!"divided.toml", c!"."),
  (c!"p/req.md", c!"# REQ_A: one\n# REQ_B: two\n"), (c!"p/a.rs", c!"a"), (c!"p/b.rs", c!"b")]

theorem may (f id : Str) : MayDivide (e f id) w c!"p" config code c!"CODE" c!"MORE" [c!"a.rs"] [c!"b.rs"] where
  entry := by simp [config]
  once b hb hid := by
    simp only [config, List.mem_cons, List.not_mem_nil, or_false] at hb
    rcases hb with rfl | rfl
    · revert hid; decide
    · rfl
  parser := rfl
  paths := rfl
  some := by simp
  searched := (matched_or _).2 fun p _ => ⟨[patternOf c!"p" p], by unfold Finds; rfl⟩
  different := by decide
  names b hb hid := by
    simp only [config, List.mem_cons, List.not_mem_nil, or_false] at hb
    rcases hb with rfl | rfl
    · decide
    · exact absurd rfl hid
  leaf rel hr := by
    simp only [config, List.mem_cons, List.not_mem_nil, or_false] at hr
    subst hr
    decide

def unique (f id : Str) : Bool := match Controller.new (e f id) w divided c!"p" with
  | .ok c => ReportExample.uniqueCheck c.graph
  | _ => false

theorem exit {f id : Str} (hu : unique f id = true) (h : (Main.main (e f id) ⟨c!"requirements.toml", c!"p", []⟩ w).1 ≤ 1)
    (h' : (Main.main (e f id) ⟨c!"divided.toml", c!"p", []⟩ w).1 ≤ 1) :
    (Main.main (e f id) ⟨c!"divided.toml", c!"p", []⟩ w).1 = (Main.main (e f id) ⟨c!"requirements.toml", c!"p", []⟩ w).1 :=
  C155_exit (opt := ⟨c!"requirements.toml", c!"p", []⟩) (opt' := ⟨c!"divided.toml", c!"p", []⟩) (config := config) rfl rfl
    ⟨⟨Utf8.encode c!"...", none⟩, _, by unfold Os.openFile; rfl, rfl, rfl, (C78_config _ _).1 rfl, fun v hv => by cases hv; rfl⟩
    ⟨⟨Utf8.encode c!".", none⟩, _, by unfold Os.openFile; rfl, rfl, rfl, (C78_config _ _).1 rfl, fun v hv => by cases hv; rfl⟩
    (may f id)
    (fun c' hc => by
      unfold unique at hu
      rw [show divided = divideConfig code.id c!"CODE" c!"MORE" [c!"a.rs"] [c!"b.rs"] config from rfl, hc] at hu
      exact ReportExample.unique_of_check hu) h h'

/-- Both requirements are covered, by two files of one artefact or of two; -/
example : (Main.main (e c!"g" c!"REQ_B") ⟨c!"requirements.toml", c!"p", []⟩ w).1 = 0 := by
  have h : (Main.main (e c!"g" c!"REQ_B") ⟨c!"divided.toml", c!"p", []⟩ w).1 = 0 := by decide +kernel
  have := exit (f := c!"g") (id := c!"REQ_B") (by decide +kernel) (by decide +kernel) (Nat.le_trans (Nat.le_of_eq h) (Nat.zero_le 1))
  rw [← this, h]

/-- one is not; -/
example : (Main.main (e c!"g" c!"REQ_A") ⟨c!"requirements.toml", c!"p", []⟩ w).1 = 1 := by
  have h : (Main.main (e c!"g" c!"REQ_A") ⟨c!"divided.toml", c!"p", []⟩ w).1 = 1 := by decide +kernel
  have := exit (f := c!"g") (id := c!"REQ_A") (by decide +kernel) (by decide +kernel) (Nat.le_of_eq h)
  rw [← this, h]

/-- What is in both files is an error of reading in the one case and an error of tracing in the other. -/
example : ((Controller.new (e c!"f" c!"REQ_B") w config c!"p").toOption.map fun c =>
      (c.graph.artefacts.values.flatMap (·.errors)).length + 10 * c.tracedGraph.errors.length) = some 1 ∧
    ((Controller.new (e c!"f" c!"REQ_B") w divided c!"p").toOption.map fun c =>
      (c.graph.artefacts.values.flatMap (·.errors)).length + 10 * c.tracedGraph.errors.length) = some 10 ∧
    unique c!"f" c!"REQ_B" = false := by
  decide +kernel

end DividedExample

end Reqtrace
