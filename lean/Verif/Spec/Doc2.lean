import Verif.Spec.Controller
import Verif.Spec.Markdown
import Verif.Spec.Trace

/-!
# What the documentation says about the graph, and about ids
-/

namespace Reqtrace.Spec

/-- The artefact `a` is directly above `b` (README, "Tracing Graph"). -/
def DirectlyAbove (rels : List Relation) (a b : ArtefactId) : Prop := ∃ rel ∈ rels, rel.upper = a ∧ b ∈ rel.lower

/-- One or more steps of `P` lead from `a` to `b`. -/
inductive Steps {α : Type} (P : α → α → Prop) (a : α) : α → Prop
  | one {b} : P a b → Steps P a b
  | more {b c} : Steps P a b → P b c → Steps P a c

/-- There are no loops. -/
def NoLoops {α : Type} (P : α → α → Prop) : Prop := ∀ a, ¬ Steps P a a

/-- The traced graph says that the requirement `upper` is covered by `lower`. -/
def SaysCovered (tg : TracedGraph) (upper lower : RequirementId) : Prop :=
  ∃ tr ∈ tg.tracedRelations, ∃ c ∈ tr.covered, c.upper = upper ∧ c.lower = lower

/-- Each id is defined by one artefact only. -/
def IdsUnique (g : Graph) : Prop := ∀ a b r s, Defines g a r → Defines g b s → r.id = s.id → a = b

/-- `[A-Za-z][a-zA-Z0-9_]+[a-zA-Z0-9]` (README, "Requirement IDs") -/
def Recommended (id : Str) : Prop :=
  ∃ a m z, id = a :: m ++ [z] ∧ a.isAlpha = true ∧ m ≠ [] ∧ (∀ c ∈ m, c.isAlphanum = true ∨ c = '_') ∧ z.isAlphanum = true

end Reqtrace.Spec
