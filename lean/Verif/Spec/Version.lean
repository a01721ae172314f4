import Verif.Spec.Trace

/-!
# Giving a requirement a new id

README, "Versioning": "When a requirement changes significantly, it will usually make sense to break existing
coverage, which can easily be done by appending a version number to the identifier".
-/

namespace Reqtrace.Spec

/-- The requirement `r` with the id `new` in place of its own; any other requirement unchanged. -/
def reversioned (r : Requirement) (new : RequirementId) (s : Requirement) : Requirement :=
  if s = r then { s with id := new } else s

/-- `g'` is `g` with the requirement `r` of the artefact `a` under the id `new`: before, no other requirement had
the id of `r`, and nothing was called `new` or referred to `new`. -/
structure Reversioned (g g' : Graph) (a : ArtefactId) (r : Requirement) (new : RequirementId) : Prop where
  relations : g'.relations = g.relations
  defined : Defines g a r
  only : ∀ b s, Defines g b s → s.id = r.id → s = r
  fresh : ∀ b s, Defines g b s → s.id ≠ new ∧ (∀ ref ∈ s.covers, ref.id ≠ new) ∧ ∀ ref ∈ s.depends, ref.id ≠ new
  artefacts : ∀ b, (g'.artefacts.get b).isSome = (g.artefacts.get b).isSome
  defines : ∀ b s', Defines g' b s' ↔ ∃ s, Defines g b s ∧ s' = reversioned r new s

/-- The id that the reference behind a coverage names: the upper requirement is named by a `covers` reference, the
lower one by a `depends` reference. -/
def named (c : Coverage) : RequirementId :=
  match c.direction with
  | .upwards => c.upper
  | .downwards => c.lower

/-- The coverage with the new id in place of the old one. -/
def reversionedCoverage (old new : RequirementId) (c : Coverage) : Coverage :=
  { c with upper := if c.upper = old then new else c.upper
           lower := if c.lower = old then new else c.lower }

end Reqtrace.Spec
