import Verif.Models

/-!
# What cross references mean

Specification for `Verif.Aggregator`, in terms of the traced graph.
-/

namespace Reqtrace.Spec

/-- Artefact `a` of the traced graph has a requirement with this id. -/
def Has (tg : TracedGraph) (a : ArtefactId) (id : RequirementId) : Prop :=
  ∃ art req, tg.artefacts.get a = some art ∧ art.requirements.get id = some req

/-- The relations of a traced graph name existing artefacts, and the coverages of a relation lead
from a requirement of its upper artefact to one of a lower artefact. -/
structure Closed (tg : TracedGraph) : Prop where
  upper : ∀ tr ∈ tg.tracedRelations, (tg.artefacts.get tr.relation.upper).isSome
  lower : ∀ tr ∈ tg.tracedRelations, ∀ a ∈ tr.relation.lower, (tg.artefacts.get a).isSome
  covUpper : ∀ tr ∈ tg.tracedRelations, ∀ c ∈ tr.covered, Has tg tr.relation.upper c.upper
  covLower : ∀ tr ∈ tg.tracedRelations, ∀ c ∈ tr.covered, ∃ a ∈ tr.relation.lower, Has tg a c.lower

/-- All coverages along relations equal to `rel`. -/
def coveragesAlong (tg : TracedGraph) (rel : Relation) : List Coverage :=
  (tg.tracedRelations.filter (fun tr => tr.relation = rel)).flatMap (·.covered)

end Reqtrace.Spec
