import Verif.Props.Edited
import Verif.Spec.Repaired

/-!
# C146: a reference that was missing is added
-/

namespace Reqtrace

open Spec

section
variable {g g' : Graph} {x : ArtefactId} {old new : Requirement}

/-- The same requirement with perhaps more references and at another place. -/
structure Enriched (r r' : Requirement) : Prop where
  id : r'.id = r.id
  title : r'.title = r.title
  covers : RefsIn r.covers r'.covers
  depends : RefsIn r.depends r'.depends

theorem refsIn_forget {a b : List Reference} (h : a.map (moveRef nowhere) = b.map (moveRef nowhere)) : RefsIn a b := by
  intro ref href
  have : moveRef nowhere ref ∈ b.map (moveRef nowhere) := h ▸ List.mem_map_of_mem href
  obtain ⟨ref', h1, h2⟩ := List.mem_map.1 this
  have h3 : (moveRef nowhere ref').id = (moveRef nowhere ref).id := congrArg Reference.id h2
  have h4 : (moveRef nowhere ref').title = (moveRef nowhere ref).title := congrArg Reference.title h2
  exact ⟨ref', h1, h3, h4⟩

theorem enriched_forget {r r' : Requirement} (h : forgetReq r = forgetReq r') : Enriched r r' := by
  have h1 : (forgetReq r).id = (forgetReq r').id := congrArg Requirement.id h
  have h2 : (forgetReq r).title = (forgetReq r').title := congrArg Requirement.title h
  exact ⟨h1.symm, h2.symm, refsIn_forget (congrArg Requirement.covers h), refsIn_forget (congrArg Requirement.depends h)⟩

theorem enriched_refl (r : Requirement) : Enriched r r :=
  ⟨rfl, rfl, fun ref h => ⟨ref, h, rfl, rfl⟩, fun ref h => ⟨ref, h, rfl, rfl⟩⟩

variable (hg : GraphRewritten g g' x old new) (he : Enriched old new) (hk : Keyed g) (hk' : Keyed g')
include hg he hk hk'

theorem edited_defines {a : ArtefactId} {r : Requirement} (h : Defines g a r) : ∃ r', Defines g' a r' ∧ Enriched r r' := by
  by_cases e : a = x
  · subst e
    obtain ⟨art, h1, h2⟩ := h
    obtain ⟨art0, art', g1, g2, -, -, g3, -⟩ := hg.artefact
    rw [h1] at g1; cases g1
    obtain ⟨r', g4, g5⟩ := (g3 r.id).2 r h2
    have g6 := hk'.requirement _ _ g2 _ _ g4
    refine ⟨r', ⟨art', g2, by rw [g6]; exact g4⟩, ?_⟩
    rcases g5 with g5 | ⟨rfl, rfl⟩
    · exact enriched_forget g5
    · exact he
  · exact ⟨r, by unfold Defines; rw [hg.others a e]; exact h, enriched_refl r⟩

theorem edited_defines_back {a : ArtefactId} {r' : Requirement} (h : Defines g' a r') :
    ∃ r, Defines g a r ∧ Enriched r r' ∧ (forgetReq r = forgetReq r' ∨ a = x ∧ r = old ∧ r' = new) := by
  by_cases e : a = x
  · subst e
    obtain ⟨art', h1, h2⟩ := h
    obtain ⟨art, art0, g1, g2, -, -, g3, -⟩ := hg.artefact
    rw [h1] at g2; cases g2
    cases g4 : art.requirements.get r'.id with
    | none => rw [(g3 r'.id).1.1 g4] at h2; cases h2
    | some r =>
      obtain ⟨r2, g5, g6⟩ := (g3 r'.id).2 r g4
      rw [h2] at g5; cases g5
      have g7 := hk.requirement _ _ g1 _ _ g4
      refine ⟨r, ⟨art, g1, by rw [g7]; exact g4⟩, ?_⟩
      rcases g6 with g6 | ⟨rfl, rfl⟩
      · exact ⟨enriched_forget g6, .inl g6⟩
      · exact ⟨he, .inr ⟨rfl, rfl, rfl⟩⟩
  · exact ⟨r', by unfold Defines; rw [← hg.others a e]; exact h, enriched_refl r', .inl rfl⟩

theorem edited_unique (hu : ∀ a b r s, Defines g a r → Defines g b s → r.id = s.id → a = b) :
    ∀ a b r s, Defines g' a r → Defines g' b s → r.id = s.id → a = b := by
  intro a b r s hr hs e
  obtain ⟨r0, h1, h2, -⟩ := edited_defines_back hg he hk hk' hr
  obtain ⟨s0, h3, h4, -⟩ := edited_defines_back hg he hk hk' hs
  exact hu a b r0 s0 h1 h3 (by rw [← h2.id, ← h4.id, e])

omit hg he hk hk' in
theorem owns_unique {g : Graph} (hu : ∀ a b r s, Defines g a r → Defines g b s → r.id = s.id → a = b) {a : ArtefactId} {r : Requirement}
    (h : Defines g a r) : Owns g a r := by
  refine ⟨h, fun b r' hb hr' e => ?_⟩
  have := hu b a r' r hr' h e
  subst this
  rw [Std.ReflOrd.compare_self] at hb
  cases hb

omit he hk hk' in
theorem edited_setting {b : ArtefactId} : (∀ art, g'.artefacts.get b = some art → art.referenceWithTitle = false) ↔
    ∀ art, g.artefacts.get b = some art → art.referenceWithTitle = false := by
  by_cases e : b = x
  · subst e
    obtain ⟨art, art', g1, g2, -, g3, -⟩ := hg.artefact
    rw [g1, g2]
    simp [g3]
  · rw [hg.others b e]

omit he hk hk' in
theorem edited_rightTitle {ref ref' : Reference} {b : ArtefactId} {r r' : Requirement} (h1 : ref'.title = ref.title)
    (h2 : r'.title = r.title) : RightTitle g' ref' b r' ↔ RightTitle g ref b r := by
  unfold RightTitle
  rw [edited_setting hg, h1, h2]

theorem edited_establishes (hu : ∀ a b r s, Defines g a r → Defines g b s → r.id = s.id → a = b) {rel : Relation} {a : ArtefactId}
    {u l : Requirement} {ref : Reference} {d : CoverageDirection} (h : Establishes g rel a u l ref d) :
    ∃ u' l' ref', Establishes g' rel a u' l' ref' d ∧ Enriched u u' ∧ Enriched l l' ∧ ref'.id = ref.id ∧ ref'.title = ref.title := by
  have hu' := edited_unique hg he hk hk' hu
  cases h with
  | up h1 h2 h3 h4 h5 =>
    obtain ⟨u', k1, k2⟩ := edited_defines hg he hk hk' h1
    obtain ⟨l', k3, k4⟩ := edited_defines hg he hk hk' h3.1
    obtain ⟨ref', k5, k6, k7⟩ := k4.covers _ h4
    exact ⟨u', l', ref', .up k1 h2 (owns_unique hu' k3) k5 (by rw [k6, h5, k2.id]), k2, k4, k6, k7⟩
  | down h1 h2 h3 h4 h5 =>
    obtain ⟨u', k1, k2⟩ := edited_defines hg he hk hk' h1
    obtain ⟨l', k3, k4⟩ := edited_defines hg he hk hk' h3.1
    obtain ⟨ref', k5, k6, k7⟩ := k2.depends _ h4
    exact ⟨u', l', ref', .down k1 h2 (owns_unique hu' k3) k5 (by rw [k6, h5, k4.id]), k2, k4, k6, k7⟩

theorem edited_establishes_back (hu : ∀ a b r s, Defines g a r → Defines g b s → r.id = s.id → a = b) {rel : Relation} {a : ArtefactId}
    {u' l' : Requirement} {ref' : Reference} {d : CoverageDirection} (h : Establishes g' rel a u' l' ref' d) :
    ∃ u l, Defines g rel.upper u ∧ Defines g a l ∧ Enriched u u' ∧ Enriched l l' ∧ a ∈ rel.lower ∧
      ((∃ ref, Establishes g rel a u l ref d ∧ ref.id = ref'.id ∧ ref.title = ref'.title) ∨
      d = .upwards ∧ a = x ∧ l' = new ∧ ref' ∈ new.covers ∧ ref'.id = u.id ∨
      d = .downwards ∧ rel.upper = x ∧ u' = new ∧ ref' ∈ new.depends ∧ ref'.id = l.id) := by
  cases h with
  | up h1 h2 h3 h4 h5 =>
    obtain ⟨u, k1, k2, -⟩ := edited_defines_back hg he hk hk' h1
    obtain ⟨l, k3, k4, k5⟩ := edited_defines_back hg he hk hk' h3.1
    refine ⟨u, l, k1, k3, k2, k4, h2, ?_⟩
    rcases k5 with k5 | ⟨rfl, rfl, rfl⟩
    · obtain ⟨ref, k6, k7, k8⟩ := refsIn_forget (congrArg Requirement.covers k5).symm _ h4
      exact .inl ⟨ref, .up k1 h2 (owns_unique hu k3) k6 (by rw [k7, h5, k2.id]), k7, k8⟩
    · exact .inr (.inl ⟨rfl, rfl, rfl, h4, by rw [h5, k2.id]⟩)
  | down h1 h2 h3 h4 h5 =>
    obtain ⟨u, k1, k2, k5⟩ := edited_defines_back hg he hk hk' h1
    obtain ⟨l, k3, k4, -⟩ := edited_defines_back hg he hk hk' h3.1
    refine ⟨u, l, k1, k3, k2, k4, h2, ?_⟩
    rcases k5 with k5 | ⟨hx, rfl, rfl⟩
    · obtain ⟨ref, k6, k7, k8⟩ := refsIn_forget (congrArg Requirement.depends k5).symm _ h4
      exact .inl ⟨ref, .down k1 h2 (owns_unique hu k3) k6 (by rw [k7, h5, k4.id]), k7, k8⟩
    · exact .inr (.inr ⟨rfl, hx, rfl, h4, by rw [h5, k4.id]⟩)

/-- All but one requirement was covered along one relation.  With more references in one requirement all is well exactly if
they are right and fill this gap. -/
theorem edited_clean (hn : Defines g' x new) {rel : Relation} {u : Requirement} (hc : CleanBut g rel u) :
    (Sound g' ∧ FullyCovered g' ∧ NothingDerived g') ↔ RightRefs g x new ∧ Fills g x new rel u := by
  have hu := hc.unique
  have hu' := edited_unique hg he hk hk' hu
  have hrels := hg.relations
  constructor
  · rintro ⟨h1, h2, h3⟩
    refine ⟨⟨?_, ?_, ?_, ?_⟩, ?_⟩
    · intro ref href
      obtain ⟨rel', hrel, v, h⟩ := h1.covers x new hn ref href
      rw [hrels] at hrel
      cases h with
      | up g1 g2 g3 g4 g5 =>
        obtain ⟨v0, k1, k2, -⟩ := edited_defines_back hg he hk hk' g1
        exact ⟨rel', hrel, g2, v0, k1, by rw [g5, k2.id]⟩
    · intro ref href rel' hrel hlow v hv hid
      obtain ⟨v', k1, k2⟩ := edited_defines hg he hk hk' hv
      have := h1.titles rel' (hrels ▸ hrel) x v' new ref .upwards
        (.up k1 hlow (owns_unique hu' hn) href (by rw [hid, k2.id]))
      exact (edited_rightTitle hg rfl k2.title).1 this
    · intro ref href
      obtain ⟨rel', hrel, h, b, l, h'⟩ := h1.depends x new hn ref href
      rw [hrels] at hrel
      cases h' with
      | down g1 g2 g3 g4 g5 =>
        obtain ⟨l0, k1, k2, -⟩ := edited_defines_back hg he hk hk' g3.1
        exact ⟨rel', hrel, h, b, g2, l0, k1, by rw [g5, k2.id]⟩
    · rintro ref href rel' hrel rfl a ha l hl hid
      obtain ⟨l', k1, k2⟩ := edited_defines hg he hk hk' hl
      have := h1.titles rel' (hrels ▸ hrel) a new l' ref .downwards
        (.down hn ha (owns_unique hu' k1) href (by rw [hid, k2.id]))
      exact (edited_rightTitle hg rfl k2.title).1 this
    · obtain ⟨u', k1, k2⟩ := edited_defines hg he hk hk' hc.upper
      obtain ⟨a, l, ref, d, h⟩ := h2 rel (hrels ▸ hc.relation) u' k1
      obtain ⟨u0, l0, m1, m2, m3, m4, m5, m6⟩ := edited_establishes_back hg he hk hk' hu h
      have hu0 : u0 = u := by
        obtain ⟨art, e1, e2⟩ := m1
        obtain ⟨art', e3, e4⟩ := hc.upper
        rw [e1] at e3; cases e3
        rw [← m3.id, k2.id] at e2
        rw [e2] at e4; cases e4; rfl
      subst hu0
      rcases m6 with ⟨ref0, m6, -⟩ | ⟨-, rfl, rfl, m7, m8⟩ | ⟨-, m6, rfl, m7, m8⟩
      · exact absurd m6 (hc.missing _ _ _ _)
      · exact .inl ⟨m5, ref, m7, m8⟩
      · exact .inr ⟨m6, k2.id, ref, m7, a, m5, l0, m2, m8⟩
  · rintro ⟨hm, hf⟩
    have hdef := fun {a r} => @edited_defines g g' x old new hg he hk hk' a r
    have hest := fun {rel a u l ref d} => @edited_establishes g g' x old new hg he hk hk' hu rel a u l ref d
    obtain ⟨u1, ku1, ku2⟩ := hdef hc.upper
    have hcov : ∃ a l ref d, Establishes g' rel a u1 l ref d := by
      rcases hf with ⟨f1, ref, f2, f3⟩ | ⟨f1, f2, ref, f3, a, f4, l, f5, f6⟩
      · exact ⟨x, new, ref, .upwards, .up ku1 f1 (owns_unique hu' hn) f2 (by rw [f3, ku2.id])⟩
      · obtain ⟨l', k1, k2⟩ := hdef f5
        have : u1 = new := by
          obtain ⟨art, e1, e2⟩ := ku1
          obtain ⟨art', e3, e4⟩ := hn
          rw [f1, e3] at e1; cases e1
          rw [ku2.id, ← f2, e4] at e2; cases e2; rfl
        subst this
        exact ⟨a, l', ref, .downwards, .down ku1 f4 (owns_unique hu' k1) f3 (by rw [f6, k2.id])⟩
    refine ⟨⟨hu', ?_, ?_, ?_, ?_⟩, ?_, ?_⟩
    · intro rel' hrel
      rw [hrels] at hrel
      by_cases e : rel' = rel
      · subst e
        obtain ⟨a, l, ref, d, h⟩ := hcov
        exact ⟨a, _, l, ref, d, h⟩
      · obtain ⟨a, v, l, ref, d, h⟩ := hc.used rel' hrel e
        obtain ⟨v', l', ref', h', -⟩ := hest h
        exact ⟨a, v', l', ref', d, h'⟩
    · intro a l' hl' ref' href'
      rw [hrels]
      obtain ⟨l, k1, k2, k3⟩ := edited_defines_back hg he hk hk' hl'
      have main : ∃ rel ∈ g.relations, a ∈ rel.lower ∧ ∃ v, Defines g rel.upper v ∧ ref'.id = v.id := by
        rcases k3 with k3 | ⟨rfl, rfl, rfl⟩
        · obtain ⟨ref, k6, k7, -⟩ := refsIn_forget (congrArg Requirement.covers k3).symm _ href'
          obtain ⟨rel', h1, v, h⟩ := hc.covers a l k1 ref k6
          cases h with
          | up g1 g2 g3 g4 g5 => exact ⟨rel', h1, g2, v, g1, k7.symm.trans g5⟩
        · exact hm.covers ref' href'
      obtain ⟨rel', h1, h2, v, h3, h4⟩ := main
      obtain ⟨v', k4, k5⟩ := hdef h3
      exact ⟨rel', h1, v', .up k4 h2 (owns_unique hu' hl') href' (by rw [h4, k5.id])⟩
    · intro a v' hv' ref' href'
      rw [hrels]
      obtain ⟨v, k1, k2, k3⟩ := edited_defines_back hg he hk hk' hv'
      have main : ∃ rel ∈ g.relations, rel.upper = a ∧ ∃ b ∈ rel.lower, ∃ l, Defines g b l ∧ ref'.id = l.id := by
        rcases k3 with k3 | ⟨rfl, rfl, rfl⟩
        · obtain ⟨ref, k6, k7, -⟩ := refsIn_forget (congrArg Requirement.depends k3).symm _ href'
          obtain ⟨rel', h1, h2, b, l, h⟩ := hc.depends a v k1 ref k6
          cases h with
          | down g1 g2 g3 g4 g5 => exact ⟨rel', h1, h2, b, g2, l, g3.1, k7.symm.trans g5⟩
        · exact hm.depends ref' href'
      obtain ⟨rel', h1, rfl, b, h2, l, h3, h4⟩ := main
      obtain ⟨l', k4, k5⟩ := hdef h3
      exact ⟨rel', h1, rfl, b, l', .down hv' h2 (owns_unique hu' k4) href' (by rw [h4, k5.id])⟩
    · intro rel' hrel a v' l' ref' d h
      rw [hrels] at hrel
      show RightTitle g' ref' (referencedArt rel' a d) (referenced v' l' d)
      obtain ⟨v, l, m1, m2, m3, m4, m5, m6⟩ := edited_establishes_back hg he hk hk' hu h
      rcases m6 with ⟨ref, m6, m7, m8⟩ | ⟨rfl, rfl, rfl, m7, m8⟩ | ⟨rfl, m6, rfl, m7, m8⟩
      · have := hc.titles rel' hrel a v l ref d m6
        exact (edited_rightTitle hg m8.symm (by cases d <;> simp [referenced, m3.title, m4.title])).2 this
      · exact (edited_rightTitle hg rfl m3.title).2 (hm.coverTitles ref' m7 rel' hrel m5 v m1 m8)
      · exact (edited_rightTitle hg rfl m4.title).2 (hm.dependTitles ref' m7 rel' hrel m6 a m5 l m2 m8)
    · intro rel' hrel v' hv'
      rw [hrels] at hrel
      obtain ⟨v, k1, k2, -⟩ := edited_defines_back hg he hk hk' hv'
      by_cases e : rel' ≠ rel ∨ v ≠ u
      · obtain ⟨a, l, ref, d, h⟩ := hc.covered rel' hrel v k1 e
        obtain ⟨v2, l', ref', h', m1, -⟩ := hest h
        have : v2 = v' := by
          have m2 : Defines g' rel'.upper v2 := by cases h' <;> assumption
          obtain ⟨art, e1, e2⟩ := m2
          obtain ⟨art', e3, e4⟩ := hv'
          rw [e1] at e3; cases e3
          rw [k2.id, ← m1.id, e2] at e4; cases e4; rfl
        subst this
        exact ⟨a, l', ref', d, h'⟩
      · have e1 : rel' = rel := Classical.byContradiction fun h => e (.inl h)
        have e2 : v = u := Classical.byContradiction fun h => e (.inr h)
        subst e1; subst e2
        have : u1 = v' := by
          obtain ⟨art, e1, e2⟩ := ku1
          obtain ⟨art', e3, e4⟩ := hv'
          rw [e1] at e3; cases e3
          rw [k2.id, ← ku2.id, e2] at e4; cases e4; rfl
        subst this
        exact hcov
    · intro a art' hart' hig l' hl'
      rw [hrels]
      obtain ⟨l, k1, k2, -⟩ := edited_defines_back hg he hk hk' hl'.1
      have : ∃ art, g.artefacts.get a = some art ∧ art.ignoreDerivedRequirements = false := by
        by_cases e : a = x
        · subst e
          obtain ⟨art, art0, g1, g2, g3, -⟩ := hg.artefact
          rw [hart'] at g2; cases g2
          exact ⟨art, g1, by rw [← g3]; exact hig⟩
        · exact ⟨art', by rw [← hg.others a e]; exact hart', hig⟩
      obtain ⟨art, g1, g2⟩ := this
      obtain ⟨rel', h1, v, ref, d, h⟩ := hc.derived a art g1 g2 l (owns_unique hu k1)
      obtain ⟨v', l2, ref', h', -, m1, -⟩ := hest h
      have : l2 = l' := by
        have m2 : Defines g' a l2 := by cases h' <;> rename_i o _ _ <;> exact o.1
        obtain ⟨art, e1, e2⟩ := m2
        obtain ⟨art', e3, e4⟩ := hl'.1
        rw [e1] at e3; cases e3
        rw [k2.id, ← m1.id, e2] at e4; cases e4; rfl
      subst this
      exact ⟨rel', h1, v', ref', d, h'⟩

end

theorem lastEntry_split {config : Config} {before aft : List ArtefactConfig} {ac : ArtefactConfig}
    (h : config.artefacts = before ++ ac :: aft) (h' : ∀ b ∈ aft, b.id ≠ ac.id) : LastEntry config ac :=
  ⟨before, aft, h, h'⟩

/-- **C146** A project with a gap — one requirement not covered along one relation, and nothing else wrong — has no more
problem after references were added to one text exactly if that text is well-formed, all its references are right and one of
them fills the gap. -/
theorem C146_repair {env : Env} {w w' : World} {base : Path} {config : Config} {x : ArtefactId} {old new : Requirement}
    (hm : ProjectEdited env w w' base config x old new) (hid : new.id = old.id) (ht : new.title = old.title)
    (hc : RefsIn old.covers new.covers) (hd : RefsIn old.depends new.depends) {c : Controller}
    (h : Controller.new env w config base = .ok c) (hp : ¬ ParseProblem c.graph.artefacts) {rel : Relation} {u : Requirement}
    (hb : CleanBut c.graph rel u) :
    TraceProblem c.tracedGraph ∧ ∃ c', Controller.new env w' config base = .ok c' ∧
      (¬ TraceProblem c'.tracedGraph ↔
        ReadsClean env w' base config x ∧ RightRefs c.graph x new ∧ Fills c.graph x new rel u) := by
  obtain ⟨c', h', hg, -⟩ := C141_project hm hid h
  have he : Enriched old new := ⟨hid, ht, hc, hd⟩
  have hk := (C18_consistent h).1
  have hk' := (C18_consistent h').1
  refine ⟨Classical.byContradiction fun hno => ?_, c', h', ?_⟩
  · obtain ⟨-, -, h3, -⟩ := (problem_iff h).1 hno
    obtain ⟨a, l, ref, d, h4⟩ := h3 rel hb.relation u hb.upper
    exact hb.missing _ _ _ _ h4
  · have hn : Defines c'.graph x new := by
      obtain ⟨art, art', g1, g2, -, -, -, g3⟩ := hg.artefact
      obtain ⟨-, g4⟩ := g3 (fun f s hfs => absurd ⟨x, art, _, g1, hfs⟩ hp)
      exact ⟨art', g2, by rw [hid]; exact g4⟩
    rw [problem_iff h', edited_clean hg he hk hk' hn hb]
    have : ¬ ParseProblem c'.graph.artefacts ↔ ReadsClean env w' base config x := by
      obtain ⟨before, ac, aft, pre, p, post, e1, rfl, e3, -⟩ := hm.artefact
      have hl : LastEntry config ac := lastEntry_split e1 e3
      obtain ⟨art, art', g1, g2, -⟩ := hg.artefact
      have key := (C68_no_errors_iff h' hl g2).1
      constructor
      · intro hno
        have : art'.errors = [] := by
          cases he' : art'.errors with
          | nil => rfl
          | cons e es => exact absurd ⟨_, art', e, g2, by rw [he']; simp⟩ hno
        obtain ⟨reqs, hr⟩ := key.1 this
        exact ⟨ac, reqs, hl, rfl, hr⟩
      · rintro ⟨ac', reqs, hl', hid', hr⟩ ⟨a, art0, e, k1, k2⟩
        have := lastEntry_unique hl' hl hid'
        subst this
        by_cases ha : a = ac'.id
        · subst ha
          rw [g2] at k1; cases k1
          rw [key.2 ⟨reqs, hr⟩] at k2; cases k2
        · rw [hg.others a ha] at k1
          exact hp ⟨a, art0, e, k1, k2⟩
    rw [this]

/-- **C146** A problem-free project gets a new section above and then, elsewhere, references in a text that was there: after
the section it has a problem, and after the references none exactly if they are right and lead to the new section. -/
theorem C146_section_then_reference {env : Env} {w w' w'' : World} {base : Path} {config : Config} {x y : ArtefactId}
    {s old new : Requirement} (h1 : ProjectGrows env w w' base config x s) (h2 : ProjectEdited env w' w'' base config y old new)
    {c : Controller} (h : Controller.new env w config base = .ok c) (hg : ¬ TraceProblem c.tracedGraph)
    (hs : ∀ a r, Defines c.graph a r → r.id ≠ s.id) (hc : s.covers = []) (hd : s.depends = [])
    {rel : Relation} (hrel : rel ∈ config.relations) (hx : rel.upper = x) (hone : ∀ rel' ∈ config.relations, rel'.upper = x → rel' = rel)
    (hi : ∀ art, c.graph.artefacts.get x = some art → art.ignoreDerivedRequirements = true)
    (hid : new.id = old.id) (ht : new.title = old.title) (hc' : RefsIn old.covers new.covers) (hd' : RefsIn old.depends new.depends) :
    ∃ c' c'', Controller.new env w' config base = .ok c' ∧ TraceProblem c'.tracedGraph ∧
      Controller.new env w'' config base = .ok c'' ∧
      (¬ TraceProblem c''.tracedGraph ↔
        ReadsClean env w'' base config y ∧ RightRefs c'.graph y new ∧ Fills c'.graph y new rel s) := by
  obtain ⟨c', h', ha, -⟩ := C137_project h1 h hs
  obtain ⟨g1, g2, g3, g4⟩ := (problem_iff h).1 hg
  have hrels := (C18_no_panic h).2.1
  have hbut := adds_cleanBut ha g2 g3 g4 hc hd (hrels ▸ hrel) hx (hrels ▸ hone) hi
  obtain ⟨hp, c'', h'', hiff⟩ := C146_repair h2 hid ht hc' hd' h' (by rw [adds_errors ha]; exact g1) hbut
  exact ⟨c', c'', h', hp, h'', hiff⟩

namespace RepairedExample

open CtrlExample TitlesExample

def one : Str := c!"Intro\n# REQ_A: title a\n"
def more : Str := c!"# REQ_B: title b\nComment: x\n"
def before : Str := c!"Intro\n# DES_A: d\nCovers: REQ_A\n"
def after : Str := c!"Intro\n# DES_A: d\nCovers:\n* REQ_B\n* REQ_A\n\n"

def requirements : ArtefactConfig := ⟨c!"REQ", [c!"req.md"], .markdown, none, none⟩
def design : ArtefactConfig := ⟨c!"DES", [c!"des.md"], .markdown, none, none⟩
def config : Config := ⟨none, [requirements, design], [⟨c!"REQ", [c!"DES"]⟩], none, none⟩
def e : Env := env .nil config

def first : World := world [(c!"p/req.md", one), (c!"p/des.md", before)]
def second : World := world [(c!"p/req.md", one ++ more), (c!"p/des.md", before)]
def third : World := world [(c!"p/req.md", one ++ more), (c!"p/des.md", after)]

def req : Requirement := ⟨c!"REQ_B", some c!"title b", ⟨c!"p/req.md", some (.line 1)⟩, [], [], [], .ofList [(c!"Comment", c!"x")]⟩

def at' (n : Nat) : Location := lineOf c!"p/des.md" n

def old : Section := ⟨2, c!"DES_A", c!"d", [⟨3, c!"Covers", .refs [⟨c!"REQ_A", none, at' 3⟩]⟩], .no⟩
def new : Section := ⟨2, c!"DES_A", c!"d", [⟨3, c!"Covers", .refs [⟨c!"REQ_B", none, at' 4⟩, ⟨c!"REQ_A", none, at' 5⟩]⟩], .no⟩

def oldReq : Requirement := ⟨c!"DES_A", some c!"d", at' 2, [⟨c!"REQ_A", none, at' 3⟩], [], [], .empty⟩
def newReq : Requirement := ⟨c!"DES_A", some c!"d", at' 2, [⟨c!"REQ_B", none, at' 4⟩, ⟨c!"REQ_A", none, at' 5⟩], [], [], .empty⟩

theorem file_req : FileGrows e first second c!"p/req.md" .markdown (shiftReq 2 req) := by
  refine .section (t := one) (s := more) (ls := [c!"Intro\n", c!"# REQ_A: title a\n"])
    (ss := [⟨2, c!"REQ_A", c!"title a", [], .no⟩]) (h := c!"# REQ_B: title b\n") (body := [c!"Comment: x\n"])
    (by decide +kernel) (by decide +kernel) (.inr (by decide +kernel))
    (lines_iff.2 (by decide +kernel)) ?_ rfl (lines_iff.2 (by decide +kernel))
    (DocExample.head (id := c!"REQ_B") (raw := c!"title b") (SectionsExample.line (by decide)) (by decide +kernel))
    ((C81_file ..).1 (by decide +kernel))
  refine ⟨[c!"Intro\n"], [c!"# REQ_A: title a\n"], rfl, SectionsExample.intro_line, .inr ⟨_, _, 1, _, _, rfl,
    DocExample.head (id := c!"REQ_A") (raw := c!"title a") (SectionsExample.line (by decide)) (by decide +kernel)⟩, ?_⟩
  exact .cons (h := c!"# REQ_A: title a\n") (body := []) (rest := []) (DocExample.head (id := c!"REQ_A") (raw := c!"title a")
    (SectionsExample.line (by decide)) (by decide +kernel)) (by simp) (.inl rfl) (.attrs (.inl (.inl rfl)) (.nil _)) (.nil _)

theorem edited : SectionEdited e second third c!"p/des.md" old new := by
  have a1 : AttrLine c!"Covers: REQ_A\n" c!"Covers" c!"REQ_A" := DocExample.attr (SectionsExample.line (by decide)) (by decide +kernel)
  have a3 : AttrLine c!"Covers:\n" c!"Covers" [] := DocExample.attr (SectionsExample.line (by decide)) (by decide +kernel)
  have r1 : RefLine .ascii c!"* REQ_B\n" c!"REQ_B" none :=
    (Md.refParts_iff (DocExample.attr.isLine (SectionsExample.line (by decide)))).1 (by decide +kernel)
  have r2 : RefLine .ascii c!"* REQ_A\n" c!"REQ_A" none :=
    (Md.refParts_iff (DocExample.attr.isLine (SectionsExample.line (by decide)))).1 (by decide +kernel)
  refine .edited (text := before) (text' := after) (pre := [c!"Intro\n"]) (h := c!"# DES_A: d\n") (h' := c!"# DES_A: d\n")
    (body := [c!"Covers: REQ_A\n"]) (body' := [c!"Covers:\n", c!"* REQ_B\n", c!"* REQ_A\n", c!"\n"])
    (post := []) (level := 1) (level' := 1) (by decide +kernel) (by decide +kernel)
    (lines_iff.2 (by decide +kernel)) (lines_iff.2 (by decide +kernel)) ?_ rfl rfl rfl ?_ ?_ ?_ ?_ (.inl rfl) ?_ ?_ (fun _ => ⟨rfl, rfl⟩)
  · rintro ⟨pre, c, he, hc, -⟩
    have : after.getLast? = some c := by rw [he]; simp
    exact hc (by simpa [after] using this.symm)
  · exact DocExample.head (raw := c!"d") (SectionsExample.line (by decide)) (by decide +kernel)
  · exact DocExample.head (raw := c!"d") (SectionsExample.line (by decide)) (by decide +kernel)
  · intro l hl
    refine DocExample.noHead (SectionsExample.line ?_) ?_
    · revert l; decide
    · revert l; decide +kernel
  · intro l hl
    refine DocExample.noHead (SectionsExample.line ?_) ?_
    · revert l; decide
    · revert l; decide +kernel
  · refine .attrs (.inr ⟨_, _, _, _, rfl, a1⟩) (.refs (items := []) (rest := []) ?_ (.inl rfl) (.nil _))
    exact ⟨_, c!"REQ_A", [c!"REQ_A"], [c!"REQ_A"], [], a1, .inl rfl, trimsTo_iff.2 (by decide +kernel), .one _ (by decide),
      .id (trimsTo_iff.2 (by decide +kernel)) (by decide) .nil, .nil _, rfl⟩
  · refine .attrs (.inr ⟨_, _, _, _, rfl, a3⟩)
      (.refsBlank (items := [c!"* REQ_B\n", c!"* REQ_A\n"]) (rest := []) ?_ (fun c hc => by simp at hc; subst hc; decide) (.nil _))
    exact ⟨_, [], [[]], [], [⟨c!"REQ_B", none, at' 4⟩, ⟨c!"REQ_A", none, at' 5⟩], a3, .inl rfl, trimsTo_iff.2 (by decide +kernel),
      .one _ (by decide), .blank (by simp [Blank]) .nil, .cons (by decide) r1 (.cons (by decide) r2 (.nil _)), rfl⟩

theorem file : FileEdited e second third c!"p/des.md" .markdown oldReq newReq := by
  refine .section edited ⟨rfl, rfl, rfl, rfl, rfl, rfl, fun a => ?_⟩ ⟨rfl, rfl, rfl, rfl, rfl, rfl, fun a => ?_⟩
  · by_cases h : a = c!"Covers"
    · subst h; rfl
    · have : lastOf old.attrs a = none := by simp [lastOf, old, Ne.symm h]
      rw [this]; rfl
  · by_cases h : a = c!"Covers"
    · subst h; rfl
    · have : lastOf new.attrs a = none := by simp [lastOf, new, Ne.symm h]
      rw [this]; rfl

theorem grows : ProjectGrows e first second c!"p" config c!"REQ" (shiftReq 2 req) := by
  refine ⟨fun p => rfl, [], requirements, [design], [], c!"p/req.md", [], rfl, rfl, ?_, ?_, ?_, file_req, ?_, ?_⟩
  · simp only [List.mem_singleton, forall_eq]; decide
  · intro h; cases h
  · exact .inr ⟨by decide, c!"req.md", rfl, by decide⟩
  · simp
  · simp only [List.nil_append, List.mem_singleton, forall_eq]
    rintro fs (⟨h, -⟩ | ⟨-, p, h, rfl⟩) q hq
    · cases h
    · cases h
      rw [List.mem_singleton.1 hq]
      unfold SameFile
      decide +kernel

theorem project : ProjectEdited e second third c!"p" config c!"DES" oldReq newReq := by
  refine ⟨fun p => rfl, [requirements], design, [], [], c!"p/des.md", [], rfl, rfl, by simp, ?_, file, by simp, ?_⟩
  · exact .inr ⟨by decide, c!"des.md", rfl, by decide⟩
  · simp only [List.append_nil, List.mem_singleton, forall_eq]
    rintro fs (⟨h, -⟩ | ⟨-, p, h, rfl⟩) q hq
    · cases h
    · cases h
      rw [List.mem_singleton.1 hq]
      unfold SameFile
      decide +kernel

/-- Does tracing find fault? -/
def green (w : World) : Option Bool :=
  (Controller.new e w config c!"p").toOption.map fun c => c.tracedGraph.errors.isEmpty &&
    c.graph.artefacts.values.all (·.errors.isEmpty) && c.tracedGraph.tracedRelations.all (·.uncovered.isEmpty) &&
    c.tracedGraph.derived.values.all (·.isEmpty)

/-- The project has no problem, then it has one, then it has none. -/
example : green first = some true ∧ green second = some false ∧ green third = some true := by decide +kernel

theorem first_green {c : Controller} (h : Controller.new e first config c!"p" = .ok c) : ¬ TraceProblem c.tracedGraph := by
  have key : green first = some true := by decide +kernel
  rw [green, h] at key
  simp only [Except.toOption, Option.map_some, Option.some.injEq, Bool.and_eq_true, List.all_eq_true, List.isEmpty_iff] at key
  obtain ⟨⟨⟨k1, k2⟩, k3⟩, k4⟩ := key
  rw [← (C11_frame (C18_consistent h).1 (C18_no_panic h).1).1] at k2
  rintro (⟨x, hx⟩ | ⟨a, art, x, ha, hx⟩ | ⟨tr, htr, r, hr⟩ | ⟨a, ids, r, ha, hr⟩)
  · rw [k1] at hx; cases hx
  · rw [k2 art ((BMap.mem_values_iff ..).2 ⟨a, ha⟩)] at hx; cases hx
  · rw [k3 tr htr] at hr; cases hr
  · rw [k4 ids ((BMap.mem_values_iff ..).2 ⟨a, ha⟩)] at hr; cases hr

/-- The hypotheses of `C146_section_then_reference` hold for these three states of the project. -/
example : ∃ c c' c'', Controller.new e first config c!"p" = .ok c ∧ Controller.new e second config c!"p" = .ok c' ∧
    TraceProblem c'.tracedGraph ∧ Controller.new e third config c!"p" = .ok c'' ∧
      (¬ TraceProblem c''.tracedGraph ↔ ReadsClean e third c!"p" config c!"DES" ∧ RightRefs c'.graph c!"DES" newReq ∧
        Fills c'.graph c!"DES" newReq ⟨c!"REQ", [c!"DES"]⟩ (shiftReq 2 req)) := by
  have key : (Controller.new e first config c!"p").toOption.map (fun c => c.graph.artefacts.entries.all fun a =>
      a.2.requirements.keys.all (fun k => k != c!"REQ_B") && (a.1 != c!"REQ" || a.2.ignoreDerivedRequirements)) =
      some true := by decide +kernel
  cases h : Controller.new e first config c!"p" with
  | error x => rw [h] at key; cases key
  | ok c =>
    rw [h] at key
    simp only [Except.toOption, Option.map_some, Option.some.injEq, List.all_eq_true, Bool.and_eq_true, bne_iff_ne,
      Bool.or_eq_true] at key
    have k1 : ∀ a r, Defines c.graph a r → r.id ≠ c!"REQ_B" := by
      rintro a r ⟨art, ha, hr⟩
      exact (key (a, art) ((BMap.get_eq_some_iff ..).1 ha)).1 r.id ((BMap.mem_keys_iff_isSome ..).2 (by rw [hr]; rfl))
    have k2 : ∀ art, c.graph.artefacts.get c!"REQ" = some art → art.ignoreDerivedRequirements = true := fun art ha =>
      (key (c!"REQ", art) ((BMap.get_eq_some_iff ..).1 ha)).2.resolve_left (fun h => h rfl)
    obtain ⟨c', c'', h1, h2, h3, h4⟩ := C146_section_then_reference grows project h (first_green h) k1 rfl rfl
      (rel := ⟨c!"REQ", [c!"DES"]⟩) (by decide) rfl (fun rel hrel _ => List.mem_singleton.1 hrel) k2 rfl rfl
      (fun ref href => by rw [List.mem_singleton.1 href]; exact ⟨⟨c!"REQ_A", none, at' 5⟩, by simp [newReq], rfl, rfl⟩)
      (fun ref href => by cases href)
    exact ⟨c, c', c'', rfl, h1, h2, h3, h4⟩

end RepairedExample

end Reqtrace
