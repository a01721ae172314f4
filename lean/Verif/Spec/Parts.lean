import Verif.Spec.Controller
import Verif.Spec.Output

/-!
# Parts of a project that have nothing to do with each other
-/

namespace Reqtrace.Spec

/-- The artefacts fall into two parts: relations stay within a part, and no id is in both. -/
structure Separates (part : ArtefactId → Bool) (g : Graph) : Prop where
  closed : ∀ rel ∈ g.relations, ∀ b ∈ rel.lower, part b = part rel.upper
  apart : ∀ a b r s, Defines g a r → Defines g b s → r.id = s.id → part a = part b

/-- `p` consists of the artefacts of the part and their relations. -/
structure IsPart (part : ArtefactId → Bool) (p g : Graph) : Prop where
  artefacts : ∀ a, p.artefacts.get a = if part a then g.artefacts.get a else none
  relations : p.relations = g.relations.filter (fun rel => part rel.upper)

/-- The id is in an artefact of the part. -/
def InPart (part : ArtefactId → Bool) (g : Graph) (id : RequirementId) : Prop := ∃ a, part a = true ∧ HasId g a id

/-- The error of tracing is about the part. -/
def AboutPart (part : ArtefactId → Bool) (g : Graph) : Error → Prop
  | .unusedRelation rel => part rel.upper = true
  | .duplicateRequirement r _ | .coversUnknownRequirement r _ _ | .dependOnUnknownRequirement r _ _
  | .coveredWithWrongTitle r _ _ _ | .dependWithWrongTitle r _ _ _ | .referencedWithoutTitle r _ => InPart part g r.id
  | _ => False

/-- The errors about the part, in their order. -/
noncomputable def aboutPart (part : ArtefactId → Bool) (g : Graph) (es : List Error) : List Error :=
  es.filter fun e => @decide (AboutPart part g e) (Classical.propDecidable _)

/-- The configuration of the part. -/
def partOfConfig (part : ArtefactId → Bool) (config : Config) : Config := { config with
  artefacts := config.artefacts.filter fun ac => part ac.id
  relations := config.relations.filter fun rel => part rel.upper }

end Reqtrace.Spec
