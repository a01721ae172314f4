import Verif.Spec.Input
import Verif.Spec.Doc2

/-!
# Chains of requirements through a project
-/

namespace Reqtrace.Spec

/-- The requirement `x.2` of artefact `x.1` is refined by the requirement `y.2` of `y.1`: a relation leads from one artefact
to the other, and one of the two requirements references the other. -/
def RefinedBy (g : Graph) (x y : ArtefactId × Requirement) : Prop :=
  ∃ rel ∈ g.relations, rel.upper = x.1 ∧ y.1 ∈ rel.lower ∧ Defines g x.1 x.2 ∧ Defines g y.1 y.2 ∧
    ((∃ ref ∈ x.2.depends, ref.id = y.2.id) ∨ ∃ ref ∈ y.2.covers, ref.id = x.2.id)

/-- No, one or more steps of `P` lead from `a` to `b`. -/
def LeadsDown {α : Type} (P : α → α → Prop) (a b : α) : Prop := a = b ∨ Steps P a b

/-- No relation leads down from the artefact. -/
def AtBottom (rels : List Relation) (a : ArtefactId) : Prop := ∀ rel ∈ rels, rel.upper ≠ a

/-- Requirements of the artefact need no reason: so it is configured, or this is not configured and no relation leads to the
artefact. -/
def NeedsNoReason (config : Config) (a : ArtefactId) : Prop :=
  ∃ ac, LastEntry config ac ∧ ac.id = a ∧
    (ac.ignoreDerivedRequirements = some true ∨ ac.ignoreDerivedRequirements = none ∧ IsRoot config a)

/-- From every requirement chains lead down to the bottom, one along each relation of its artefact. -/
def TracedDown (g : Graph) : Prop :=
  ∀ a r, Defines g a r → ∀ rel ∈ g.relations, rel.upper = a →
    ∃ y z, y.1 ∈ rel.lower ∧ RefinedBy g (a, r) y ∧ LeadsDown (RefinedBy g) y z ∧ AtBottom g.relations z.1

/-- To every requirement a chain leads down from one of an artefact for which `top` holds. -/
def TracedUp (g : Graph) (top : ArtefactId → Prop) : Prop :=
  ∀ a r, Defines g a r → ∃ x, top x.1 ∧ Defines g x.1 x.2 ∧ LeadsDown (RefinedBy g) x (a, r)

/-- The requirement is completely traced (README, "Completeness": 1 for those of leaf artefacts, 0 for uncovered ones, otherwise
the average of those below): it is refined along each relation of its artefact, and all that refine it are completely traced. -/
inductive Complete (g : Graph) : ArtefactId × Requirement → Prop
  | mk {x} : (∀ rel ∈ g.relations, rel.upper = x.1 → ∃ y, y.1 ∈ rel.lower ∧ RefinedBy g x y) →
      (∀ y, RefinedBy g x y → Complete g y) → Complete g x

end Reqtrace.Spec
