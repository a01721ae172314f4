import Verif.Spec.Controller
import Verif.Spec.Output
import Verif.Spec.Report

/-!
# On which side a reference stands
-/

namespace Reqtrace.Spec

/-- One of the two requirements refers to the other: `u` depends on `l`, or `l` covers `u`. -/
def Mentions (g : Graph) (u l : RequirementId) : Prop :=
  (∃ a r ref, Defines g a r ∧ r.id = u ∧ ref ∈ r.depends ∧ ref.id = l) ∨
    ∃ a r ref, Defines g a r ∧ r.id = l ∧ ref ∈ r.covers ∧ ref.id = u

/-- The same relations, and artefacts with the same ids, settings for derived requirements and ids of requirements; the
same requirements refer to each other, on whichever side. -/
structure SameMentions (g g' : Graph) : Prop where
  relations : g'.relations = g.relations
  artefacts : ∀ a, (g.artefacts.get a = none ∧ g'.artefacts.get a = none) ∨
    ∃ art art', g.artefacts.get a = some art ∧ g'.artefacts.get a = some art' ∧
      art'.ignoreDerivedRequirements = art.ignoreDerivedRequirements ∧
      ∀ k, (art'.requirements.get k).isSome = (art.requirements.get k).isSome
  mentions : ∀ u l, Mentions g' u l ↔ Mentions g u l

/-- The traced relation has `l` as covering `u`, in whichever direction. -/
def IsCovered (tr : TracedRelation) (u l : RequirementId) : Prop := ∃ c ∈ tr.covered, c.upper = u ∧ c.lower = l

/-- A reference between `u` and `l` is reported as leading nowhere, on whichever side it stands. -/
def IsUnknown (tg : TracedGraph) (u l : RequirementId) : Prop :=
  (∃ r loc, .coversUnknownRequirement r u loc ∈ tg.errors ∧ r.id = l) ∨
    ∃ r loc, .dependOnUnknownRequirement r l loc ∈ tg.errors ∧ r.id = u

/-- The same results, but for the direction of coverages and what is said about titles. -/
structure SameCoverage (tg tg' : TracedGraph) : Prop where
  length : tg'.tracedRelations.length = tg.tracedRelations.length
  relations : ∀ (i : Nat) (tr tr' : TracedRelation), tg.tracedRelations[i]? = some tr → tg'.tracedRelations[i]? = some tr' →
    tr'.relation = tr.relation ∧ (∀ u l, IsCovered tr' u l ↔ IsCovered tr u l) ∧ tr'.uncovered = tr.uncovered
  derived : ∀ a, tg'.derived.get a = tg.derived.get a
  unused : ∀ rel, .unusedRelation rel ∈ tg'.errors ↔ .unusedRelation rel ∈ tg.errors
  unknown : ∀ u l, IsUnknown tg' u l ↔ IsUnknown tg u l
  duplicate : ∀ r s, .duplicateRequirement r s ∉ tg.errors ∧ .duplicateRequirement r s ∉ tg'.errors

/-- The error is about a title. -/
def AboutTitle : Error → Prop
  | .coveredWithWrongTitle .. | .dependWithWrongTitle .. | .referencedWithoutTitle .. => True
  | _ => False

end Reqtrace.Spec
