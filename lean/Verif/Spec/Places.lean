import Verif.Models

/-!
# What does not matter for tracing: where things stand, and what else is said about them
-/

namespace Reqtrace.Spec

/-- The reference at another place. -/
def moveRef (φ : Location → Location) (r : Reference) : Reference := { r with location := φ r.location }

/-- `h` changes nothing about a requirement but its place, its attributes and tags, and the places of its references, which
`φ` gives. -/
structure Repaints (φ : Location → Location) (h : Requirement → Requirement) : Prop where
  id : ∀ r, (h r).id = r.id
  title : ∀ r, (h r).title = r.title
  covers : ∀ r, (h r).covers = r.covers.map (moveRef φ)
  depends : ∀ r, (h r).depends = r.depends.map (moveRef φ)

/-- `k` changes nothing about an artefact but its requirements, as `h` says, the names of its files and its errors. -/
structure RepaintsArtefact (h : Requirement → Requirement) (k : Artefact → Artefact) : Prop where
  id : ∀ a, (k a).id = a.id
  requirements : ∀ a, (k a).requirements = a.requirements.mapValues h
  ignoreDerived : ∀ a, (k a).ignoreDerivedRequirements = a.ignoreDerivedRequirements
  withTitle : ∀ a, (k a).referenceWithTitle = a.referenceWithTitle

/-- The error about the changed requirements. -/
def repaintError (φ : Location → Location) (h : Requirement → Requirement) : Error → Error
  | .duplicateRequirement r r' => .duplicateRequirement (h r) (h r')
  | .coveredWithWrongTitle u l t loc => .coveredWithWrongTitle (h u) (h l) t (φ loc)
  | .dependWithWrongTitle u l t loc => .dependWithWrongTitle (h u) (h l) t (φ loc)
  | .referencedWithoutTitle r loc => .referencedWithoutTitle (h r) (φ loc)
  | .dependOnUnknownRequirement r d loc => .dependOnUnknownRequirement (h r) d (φ loc)
  | .coversUnknownRequirement r c loc => .coversUnknownRequirement (h r) c (φ loc)
  | e => e

/-- The coverage by a reference at another place. -/
def moveCoverage (φ : Location → Location) (c : Coverage) : Coverage := { c with location := φ c.location }

/-- The result of tracing with the changed requirements: the same coverage, the same uncovered and derived requirements, and
the errors about the changed requirements, all in the same order. -/
def repaintTraced (φ : Location → Location) (h : Requirement → Requirement) (k : Artefact → Artefact)
    (tg : TracedGraph) : TracedGraph :=
  { artefacts := tg.artefacts.mapValues k
    tracedRelations := tg.tracedRelations.map fun tr => { tr with covered := tr.covered.map (moveCoverage φ) }
    derived := tg.derived
    errors := tg.errors.map (repaintError φ h) }

end Reqtrace.Spec
